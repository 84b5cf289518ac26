# Formal model of uBitcoin: design

This directory holds a Lean 4 model of the uBitcoin library (C++/C, `/repo/src`)
and machine-checked theorems about it.  `properties.jsonl` lists the properties
(C01, C02, ...), `MANIFEST.json` maps each property to the theorems that settle it.

## 1. Trusted base

* Lean 4.33.0's kernel.
* Axioms: at most `propext`, `Classical.choice`, `Quot.sound` (Lean's standard three).
  No axioms of our own, no `sorry`, no `native_decide`, no `bv_decide`.
* Mathlib (checked by the same kernel) for lists, `Nat.digits`, `ZMod`, Lucas primality,
  and the group law on Weierstrass curves.
* The faithfulness of the hand-written model to the C++ text.  Each model definition
  carries a comment citing file and lines, and names every simplification.

## 2. How C++ is modelled

* A byte is `UInt8`; a byte buffer or C string (without its terminating NUL) is `List UInt8`.
* `size_t` is `Nat`: no theorem covers sizes for which `2*n`, `n+4`, ... overflow 64 bits.
  Narrow counters which really wrap in the code (`uint8_t n`, `uint16_t temp`, `uint8_t` returns)
  are modelled with their width.
* An output buffer is passed as its old contents (`List UInt8`) and the new contents are returned,
  so "left untouched" and "zero filled" are visible.
* Undefined behaviour (out-of-bounds access, over-wide shift) is a separate outcome
  (`C.ub`, or `Status.ub` for parsers): nothing is claimed about what follows.  A theorem that says
  `f x = C.ok y` therefore also says that `f` does not touch memory out of bounds at the accesses modelled.
* Allocation never fails (stated where relevant).
* Loops become structural recursion on the data, or recursion on a counter.
* Hash functions: a parameter `H : List UInt8 → List UInt8` in the Base58Check functions (the theorems hold
  for every `H`); everywhere else the modelled `sha256`, `sha512`, `rmd160`, `hash160`, `doubleSha`.
  Hash objects that are fed piece by piece are modelled as contexts (Model/Sha2, Model/Ripemd, Model/Hash).
* The 256-bit integers are lists of nine 32-bit limbs; every addition, shift and multiplication is done in the
  32- or 64-bit unsigned type the C code uses, with its wrap-around.

## 3. Plan per property

| id | modelled | proof |
|----|----------|-------|
| C01, C02 | `toHex`, `hexToVal`, `fromHex` | list induction; fromHex overflow as a refutation witness |
| C03 | `toBin`, `fromBin` with the 8-bit index | induction; witness for 257 bytes |
| C04, C05 | `toBase58(Length)`, `fromBase58(Length)` with the inner digit loops on 16/8-bit temporaries | loop invariant "digits represent value"; exact characterisation of round trip; witness of failure |
| C06 | `toBase58Check`, `fromBase58Check`, hash as parameter | from C05 |
| C07 | Base43 same as Base58 (generic radix) | as C04/C05 |
| C08 | `toBase64*`, `fromBase64*`, with UB | induction by 3-byte groups |
| C09, C10 | integer conversions, varints | arithmetic |
| C11, C12 | `to_stream`, `length` of Script/Witness/TxIn/TxOut/Tx | window lemma composed field by field |
| C13–C17 | `from_stream` of the same as resumable state machines | refinement to a byte-at-a-time automaton; round trip; chunk independence; witnesses where false |
| C18–C20 | `hash`, `whash`, `sigHash`, `sigHashSegwit` as preimages written to a hash stream | equality with an independent wire-format spec; injectivity |
| C21 | `addInput`, `addOutput` | direct + history induction |
| C22–C28 | Script constructors, `type`, `address`, `fromAddress`, `push`, `multi`, witness `push` | case analysis / composition |
| C29–C31 | `segwit_addr.c` | GF(2)-linearity of the checksum step on bit vectors |
| C32–C36 | DER, compact, WIF, SEC | case analysis on lengths |
| C37–C40 | extended keys, paths, child derivation | field-by-field; group algebra for C40 |
| C41–C42 | `bip39.c` with its word list (checked by SHA-256 against the published one) | bit-string induction |
| C43–C46 | `sha2.c`, `ripemd160.c`, `hmac.c`, `pbkdf2.c`, `rfc6979.c` | buffer invariant |
| C47–C49 | `bignum.c` on 9x30-bit limbs with 32/64-bit wrap | carry-loop invariants |
| C50–C54 | `ecdsa.c`, Schnorr, ECDH over `ZMod p`, Mathlib's curve group | algebra; Lucas certificates for p and n |
| C55–C58 | `PSBT.cpp` | map-level model |
| C59 | `descriptorChecksum` | linearity |
| C60 | `ParseByteStream`, `SerializeByteStream` RAW and HEX | simulation |
| C61, C62 | `ECScalar`, `ECPoint` operators | from C48 / lexicographic order |
| C63 | `ecdsa_recover_pub_from_sig` | from C51 |
| C64 | `ECPoint` operators | from C50 |
| C65, C66 | `ECScalar`, `PrivateKey`, `PublicKey` streams, sign, verify | piece induction; from C51 |
| C67, C68 | `fromSeed`, `fromMnemonic` | from C44, C45 |
| C69 | `PublicKey::verify` dispatched on an HDPublicKey | refutation from C51 |
| C70 | addresses of keys | from C22, C23, C36 |
| C71 | `Tx::signInput`, `signSegwitInput` | against a script interpreter for the opcodes involved (Spec/Interp) |
| C72 | `ElectrumTx`: parse, fee, sign | document format in Spec/Electrum; from C14, C37, C39, C71; pieces by an invariant for the object before and after the start of the metadata |
| C73 | `PSBT::isMine` with private and public keys | derivation of Spec/PSBTSign and CKDpub; from C40, C57 |
| C74 | `PSBT::from_stream` called several times | feedPieces of Spec/Pieces; from C57 |
| C75 | all members of `Script` and `Witness` with explicit addresses, on a heap | Model/Heap, Model/HeapProgram; simulation by value programs (Spec/HeapProgram): invariant relating addresses, owners and values, one step at a time |
| C76 | `~Witness` | exact condition for the double free, from the invariant of C75 |
| C77 | `~PSBT`, copy and `operator=` of PSBT and ElectrumTx | invariant of from_stream (metadata exist and are initialised unless FAILED); Model/Copy |
| C78 | copies of PSBT and TxIn in the middle of a parse | invariant: a copy that has lost its position never completes |
| C79 | `toString`, `serialize(offset, len)`, `parse(String)`, `base64ToHex`, `hexToBase64`, `PSBT::parseBase64`, `toBase64`; Model/Text | composition of C01, C08, C11, C57, C60 |
| C80 | `fromBase64` on arbitrary padded text | reference decoder `decode64`, induction on groups of four characters |
| C81 | undefined behaviour while parsing scripts, inputs, outputs, witnesses, transactions | the exact set of bytes for the four small parsers, a necessary condition for transactions (refused by a conforming reader, and `Wide`), carried through the parse invariants; refutation for every transaction with an eight-byte length |
| C82 | undefined behaviour while parsing PSBTs | exact characterisation by the reader of pairs (`parse_ub`), necessary condition on the first pair at which it happens (`C82_only`), safety of every document and every part from its start, refutation for each kind of bad pair at any place of any document |
| C83 | overloads returning a `String`; Model/Strings | composition of C03, C04, C07, C18, C35–C37, C39 with `stringFrom` (a buffer without NUL is an error) |
| C84 | constructors, copies, `operator=`, `addInput`, `addOutput` and destructors of `TxIn`, `TxOut`, `Tx` on a heap; Model/HeapTx, Model/HeapTxProgram | Lemmas/HeapSep: predicates on (heap, owned blocks) with disjoint union; arrays of objects by induction; simulation by value programs (Spec/HeapTxProgram) as in C75 |
| C85 | `from_stream` of `TxIn`, `TxOut`, `Tx` (and the scripts and witnesses in them) on the heap as further statements of the programs of C84; Model/HeapTx, Model/HeapTxParseProgram | simulation of each call by the value model of Model/Transaction (Lemmas/HeapTxParse, HeapTxParse2); invariants between calls: no witness that was read is read again (Lemmas/TxSettle, TxResume), complete objects have complete scripts (TxWhole), sizes of witnesses (WitRoom) |
| C86 | `mnemonic_to_seed` with its cache of four places, callbacks of it and of `fromMnemonic`; Model/MnemonicSeed | the ring of places refines a queue of the last four pairs (invariant `SeedCache.Holds`), induction over the calls; the chunks of PBKDF2 by C45 |
| C87 | copies, `operator=`, `from_stream` and destructor of `PSBT` on the heap, with the metadata of inputs and outputs, keys and values; Model/HeapPSBT, Model/HeapPsbtProgram | Lemmas/HeapLogic: triples `Does P x Q` with a frame rule; a rule for every function of Model/HeapPSBT against Model/PSBT (Lemmas/HeapPsbtMeta, HeapPsbtAdd, HeapPsbt, HeapPsbtParse, HeapPsbtStream); invariant of PSBT objects between calls (Lemmas/PSBTWell); then as in C84 (Lemmas/HeapPsbtProgram) |
| C88 | copies, `operator=`, `from_stream` and destructor of `ElectrumTx` on the heap, with its transaction and metadata; Model/HeapElectrum | triples as in C87 against Model/Electrum, with a mark for objects that hold an address given back already (Lemmas/HeapElectrum); then as in C84 (Lemmas/HeapElectrumProgram) |
| C89 | `random_buffer`, `mnemonic_generate`, `generateMnemonic(n)` and the four versions of `random32` that compute something; Model/Random | induction in steps of four bytes; C41 for the phrase; phrases are injective in the entropy (the words give back the bits) |
| C90 | `random_uniform`, `random_permute`; Model/Random | induction over the rejected draws, division with remainder; Fisher–Yates: induction from the last place, each place settled by one choice |
| C91 | `begin`, `beginHMAC`, `write`, `end`, `endHMAC` in any order on the objects of Hash.h; Model/HashLife | invariant `Holds`: the context represents the message since the last start (Lemmas/Sha2Stream, Ripemd), the padded key is that of the last `beginHMAC`; induction over the calls |
| C92 | `base58_encode_check`, `base58_decode_check`; Model/TrezorBase58 | value of the digit buffer (multiply by 256 with the invariant that nothing lies above `high`; 256^100 ≤ 58^138) and of the 32-bit words (multiply by 58, a digit is accepted iff the number still fits); bijection between byte strings and texts |
| C93 | `ecdsa_sig_to_der`, addresses and WIF of ecdsa.c, address.c; Model/TrezorKeys | the search for the first byte; the prefix is the unique shortest big-endian representation of the version; C92 |
| C94 | `bn_format` and the functions on bits and digits; Model/BignumFormat | bits of a sum of limbs; long division with the invariant of the comment; simulation of the buffer by a list of characters, closed form of the text after k digits |
| C95 | SHA-3 and hasher.c; Model/Sha3, Spec/Sha3 (FIPS 202 with lanes at x + 5y, offsets and round constants from their definitions) | each step of the permutation on 25 symbolic lanes; invariant of the context (whole blocks absorbed, the rest in `message`) for both alignments |
| C96 | `quickSort`; Model/KeySort (over any comparison) | invariant of the loop of `partition` (smaller, greater, not yet seen), induction on the length of the part |
| C97 | `generate_k_random`; Model/RandomScalar on top of Model/Random | induction on the attempts; bijection between nine words and (number, unused bits) |
| C98 | `sha256_End`, `bn_write_uint64`; Model/DigestText | induction on the bytes of the digest; C43, C94, C95 |
| C99 | `PSBT::add`, `PSBT::sign`, `PSBT::to_stream` as in C57, C58 | injectivity of the encoding of points; C57, C58 applied twice |
| C100 | `ubtc_errno` in the parsers; Model/Errno | the list of writes; induction on the lists of parts, rounds and pieces |
| C101 | frame and order of the signing functions; Model/TxSign, Model/Electrum, Model/PSBT | the digest is a function of the terms; commutation of two calls, then induction on permutations and series |
| C102 | constructors of inputs and outputs from texts; Model/TxBuild | exact result for every text from C02, the txid from C83, addresses from C23; spending by anybody from the interpreter of Spec/Interp |
| C103 | PSBT signatures in the script interpreter; Model/PSBT, Spec/Interp with CHECKMULTISIG | interpreter on multisignature scripts by induction on keys, greedy matching from a sublist; C58 and C57 for each signer |
| C104 | payment round trip address → output → txid → input → signature; Model/KeyAddress, Model/TxBuild, Model/TxSign | composition of C70, C23, C102, C71 over Spec/Spend |
| C105 | watch-only wallet from the text of a public key; Model/HDWallet, Model/KeyAddress | composition of C37, C40, C70, induction on the path, C102 for the inequality of texts |
| C106 | addresses of restored wallets; Model/HDWallet, Model/KeyAddress | composition of C68, C67, C38, C39, C40, C70 over Spec/Wallet |
| C107 | `parseBase64`, `fromMnemonic`/`fromSeed`, `sign`, `toBase64` one after the other; models of C57, C58, C67, C68, C79 | composition; answer as a relation between documents, equality of answers by extensionality |
| C108 | multisignature address to spending by m owners; Model/Multisig | composition of C27, C22, C23/C102, C71, C28 with the interpreter on CHECKMULTISIG |
| C109 | whole payments: inputs, outputs, signatures, text; Model/Payment | invariant of the signing loop over C71 and the frame of the digests; composition with C102, C21, C79, C14, C18 |
| C110 | spending what a watch-only wallet received; Model/HDWallet, Model/KeyAddress, Model/TxSign | composition of C37, C40, C70, C102, C104; the output is one of those of C109 |
| C111 | two runs with different draws; Model/ECKey, Model/HDWallet, Model/TxSign, Model/PSBT, Model/Electrum, Model/Payment | exactness of scalar multiplication and signing (C50, C51) lifted through every function by congruence and induction; lengths of digests and secrets as invariants |

Properties found to be false of the code are proved false (a concrete witness) next to the
strongest true restriction, whose theorem name ends in `_partial`.

## 4. What is modelled, file by file

| source | model | not modelled |
|--------|-------|--------------|
| Conversion.cpp | Model/Conversion, Model/Text, Model/Strings | Arduino `Print` overloads |
| BaseClasses.cpp, BaseClasses.h | Model/Stream, Model/Text | Arduino streams and `printTo` |
| Transaction.cpp | Model/Transaction (serialize, parse, length, add), Model/TxBuild (constructors), Model/TxHash (hash, whash, sigHash, sigHashSegwit), Model/TxSign (signInput, signSegwitInput), Model/Errno (`ubtc_errno`), Model/Payment (the calls of a program that makes a payment, which is not code of the library), Model/HeapTx, Model/HeapTxProgram (memory management) | - |
| Script.cpp | Model/Script, Model/Transaction, Model/Address, Model/KeySort, Model/Heap, Model/HeapProgram (memory management), Model/Multisig (`multi` on key objects; also the calls of a program that puts signatures together, which is not code of the library) | - |
| segwit_addr.c | Model/Bech32 | - |
| Bitcoin.cpp `Signature`, `SchnorrSignature` | Model/Signature | - |
| sha2.c, sha3.c, ripemd160.c, hmac.c, pbkdf2.c, rfc6979.c, hasher.c, Hash.cpp | Model/Sha2, Model/Sha3, Model/Ripemd, Model/Hash, Model/HashLife | Keccak (compiled out) |
| bignum.c | Model/Bignum, Model/BignumInverse, Model/BignumFormat | `bn_print`, the slow `bn_inverse` (compiled out by options.h) |
| secp256k1.c, secp256k1.table | Model/Secp256k1, Model/SecpTable | - |
| ecdsa.c | Model/Curve, Model/CurveMul (points), Model/Ecdsa (keys, ECDH, signing, verification, recovery); Model/TrezorKeys (DER, addresses, WIF, for any hash functions); random numbers are parameters | other curves (`a ≠ 0`), `point_copy`, `memzero` |
| BitcoinCurve.cpp, Bitcoin.cpp `PublicKey`, `PrivateKey` | Model/ECKey, Model/KeyAddress, Model/Strings | - |
| HDWallet.cpp | Model/HDWallet, Model/KeyAddress, Model/MnemonicSeed | |
| bip39.c, bip39_english.h, Bitcoin.cpp mnemonic functions | Model/Mnemonic, Model/Wordlist, Model/MnemonicSeed | callbacks that call `mnemonic_to_seed` again, other sizes of the cache, texts of 2^32 - 1 characters and more |
| base58.c | Model/TrezorBase58 | Graphene addresses (compiled out) |
| rand.c | Model/Random (the values of the hardware registers, `esp_random` and `rand()` are parameters) | the set-up of the STM32 generator |
| PSBT.cpp:5-86 `descriptorChecksum` | Model/Descriptor | - |
| PSBT.cpp:88-815, PSBT.h | Model/PSBT, Model/Errno (`ubtc_errno`), Model/Copy (copies), Model/HeapPSBT, Model/HeapPsbtProgram (memory management) | allocation failures |
| Electrum.cpp, Electrum.h | Model/Electrum, Model/Copy (copies), Model/HeapElectrum (memory) | allocations that fail |

For `Script` and `Witness` there are two models: Model/Script, where objects are values, and Model/Heap, where they hold addresses of
blocks on a heap with an allocator that may refuse requests; freeing or using a block that is not owned, or reading past its end, is an
error there. C75 proves that the second behaves as the first. Blocks are identified by numbers which are never used again, so that a
dangling pointer never happens to be valid; `calloc`, `realloc`, `malloc`, `free` and `new`/`delete` are the operations of that heap.
`TxIn`, `TxOut` and `Tx` have such a second model too (Model/HeapTx, C84, and for parsing C85), with `new[]` for the arrays, whose elements are kept beside
the address of the array. `PSBT` and its metadata have one in Model/HeapPSBT (C87), `ElectrumTx` in Model/HeapElectrum (C88); `sign`, `fee` and the
accessors of both are in the value model only. Uninitialised derivation entries (`ready` false)
may not be freed or copied in either model.

**Nonces.** Theorems about signing exclude, as a hypothesis, that none of the first 10000 nonces of RFC 6979 can be used
(`ecdsaDeterministic … 10000 ≠ none`; otherwise the code gives up). Lemmas/Nonce gives a condition for a digest to meet it
that needs no multiple of the base point; Props/PaymentVector and Props/SignVector (written by tools/payvector.py, every value checked by
the kernel) use it to show that the hypotheses are met in complete cases: C72 (an Electrum document), C103 (a 1-of-2 PSBT), C107 (from a seed to
the answer of the device), C109 (payments from three kinds of outputs, and from one).

## 5. Where the code and a property disagree

Each line is a theorem in Verif/Props that exhibits the disagreement in the model.

* `C02_fromHex_overrun`: `fromHex` writes past a small output buffer.
* `C03_fromBin_wraps`: 8-bit index in `fromBin` wraps at 256 bytes.
* `C05_roundtrip_fails`, `C06_valid_rejected`, `C07_roundtrip_fails`: Base58/Base43 decoding loses or invents leading zeros. `C05_long_fails`, `C07_long_fails`: the decoder counts the superfluous bytes of its size estimate in eight bits, so that no text of 63 million (Base58) or 122000 (Base43) bytes without leading zeros can be decoded.
* `C08_empty_overrun`, `C08_empty_decode_overread`, `C08_unpadded_overread`: Base64 on empty or unpadded text.
* `C13_script_2G_refused`, `C14_many_inputs_lost`, `C16_script_wraps`: length fields.
* `C14_no_inputs_refused`: a transaction without inputs (and not with exactly one output) is serialized but refused by the parser, which takes the count 0 for the segwit marker.
* `C14_no_inputs_misread`: with exactly one output, whose amount is a multiple of 65536, the parser reports DONE after 12 bytes and holds a transaction without outputs, with a locktime made of bytes of the amount.
* `C32_der_overrun`: `der` ignores the size of the buffer and writes beyond a buffer shorter than the encoding.
* `C15_witness_cut_prefix`, `C15_tx_cut_fails`, `C16_witness_truncated_done`, `C16_tx_truncated_done`: resumable parsing of witnesses.
* `C17_tx_marker_dropped`, `C18_wtxid_without_witness`: marker without witnesses.
* `C19_none_wrong`, `C19_single_wrong`, `C19_index_out_of_range`, `C20_none_wrong`, `C20_index_undefined`: signature hash types.
* `C23_regtest_wrong`, `C23_p2pkh_mainnet_iff`, `C24_garbage_ignored`, `C24_another_text_accepted`, `C24_version_wrong`, `C24_long_program_overruns`: addresses.
* `C26_long_script_wrong`, `C27_sortedmulti_unsorted`, `C27_sortedmulti_wrong`: script building.
* `C29_limit_is_1000`, `C29_no_separator_overruns`, `C31_long_data_overruns`: Bech32.
* `C33_total_length_ignored`, `C33_pieces_refused`: DER parsing.
* `C43_rmd160_long_piece`, `C44_hmac_sha256_long_message`: 32-bit lengths.
* `C45_zero_first`: PBKDF2 with a zero first iteration count.
* `C46_large_digest_deviates`: RFC 6979 with digests not below the order.
* `C35_unknown_version_keeps_key`, `C35_large_undefined`, `C35_marker_ignored`: WIF decoding.
* `C36_invalid_accepted`, `C36_isValid_ignores_y`, `C36_interleaved`, `C36_interleaved_undefined`: SEC decoding.
* `C37_type_lost`, `C37_length_ignored`, `C37_invalid_accepted`, `C37_pub_overread`: extended key texts.
* `C38_undefined`, `C38_after_m`, `C38_empty_component`, `C38_wrong_accepted`: derivation paths.
* `C39_depth_wraps`: depth is one byte. `C40_never_refused`, `C40_hardened_not_refused`: invalid children and hardened children of public keys.
* `C41_15_21_rejected`: phrases of 15 and 21 words are generated but rejected. `C42_checksum_ignored`: `mnemonicToEntropy` ignores the checksum.
* `C67_exact`: seeds whose left half is zero are accepted, those not below the order fail an assertion.
* `C69_rejects_partial`, `C69_other_key_partial`, `C69_correct_rejected`: `verify` on an extended public key reads the serialized extended key as the point.
* `C70_segwit_partial`, `C70_segwit_short`, `C70_kind`: return value of `segwitAddress`, addresses of multisig-typed keys.
* `C49_zero_out_of_bounds`: `bn_inverse` of zero reads before the array.
* `C50_multiply_infinity_undefined`: `point_multiply` of the point at infinity inverts zero.
* `C51_zero_digest_rejected`: verification refuses digests congruent to 0; `C51_large_key_undefined`: keys not below the order fail an assertion.
* `C52_verify_accepts_high_s`: verification also accepts (r, n - s).
* `C53_sign_undefined`, `C53_negated_s_accepted`, `C53_large_s_undefined`: Schnorr.
* `C59_nul_accepted`: the buffer overload of `descriptorChecksum` takes a NUL byte for a character.
* `C60_empty_hex_read`, `C60_bad_hex_accepted`, `C60_bad_locktime_accepted`: hex streams.
* `C61_div_zero`, `C61_neg_zero`, `C61_addi_wraps`, `C61_subi_wraps`, `C61_word_constructor_undefined`: scalar arithmetic at the edges.
* `C62_order`, `C62_equal_and_less`: point order is the reverse of the order of the bytes.
* `C63_undefined`: `ecdsa_recover_pub_from_sig` on a signature with s•R = e•G (anybody can construct one) ends in the conversion of the point at infinity to affine coordinates: the inverse of zero, which the code leaves undefined; `C63_refused` and `C63_recovered` say what happens for all other signatures and recovery numbers.
* `C64_mul_large_undefined`, `C64_mul_infinity_undefined`: point multiplication at the edges.
* `C65_order_accepted`, `C65_constructor_undefined`: secrets at or above the group order.
* `C55_wraps`, `C55_zero_amount`: `fee` adds modulo 2^64 (two outputs of 2^63 cost nothing), and takes an input whose known amount is 0 for unknown.
* `C55_after_failure`: after a parse that succeeded, one that fails leaves dangling metadata behind the old transaction; `fee()` and the destructor are undefined.
* `C56_witness_overrides`: an output given under key `01` replaces the one taken from an authenticated previous transaction.
* `C57_lost`: `serialize` writes the transaction and the partial signatures only; previous outputs, scripts and derivations read by `parse` are not written, and every signature is written with hash type 1.
* `C57_offset_ignored`: asked for bytes from an offset past the end, `serialize` still writes one delimiter for every section.
* `C58_short_path_undefined`, `C58_undefined_document`: `sign` compares each path with the hardened part of the first one without looking at its length; a document with the entries m/0' and m is accepted by `parse` and makes `sign` read behind the path.
* `C58_scripts_unchecked`: redeem and witness scripts are signed for without comparison with the script of the output that is spent.
* `C58_p2wsh_without_script`, `C58_without_output`: P2WSH outputs without witness script and inputs without previous output are signed too, with a digest from before segwit.
* `C71_type_not_recorded`: `signInput` marks every signature with hash type ALL, whatever type was asked for and signed.
* `C71_p2sh_p2pkh`: `signInput` with a key hash script does not push the script, so a P2SH output to such a script cannot be spent.
* `C71_p2sh_partial`: only scripts up to 75 bytes (longer ones are not pushed as one element, C26).
* `C71_index_undefined`: an index past the inputs.
* `C72_six_inputs`: with six or more inputs the search of the transaction parser for witnesses runs into the first amount; the amount read may be wrong while the document is accepted.
* `C72_hang`, `C72_hang_any`: an extended key, of any input, with unknown version bytes in a segwit document makes `from_stream` loop forever.
* `C72_any_keys`: with known version bytes a segwit document is DONE even if the public key in it is no point (`from_stream` looks at the status of the keys in documents without segwit inputs only); `sign` then compares with a point that is not there.
* `C72_cut_fails`: if the script of the last output has 253 bytes or more and a piece of the document ends behind the first byte of its length, the transaction parser fails on the first witness, which `from_stream` takes for the sign of segwit metadata; the object never gets the transaction. With a shorter script any pieces will do (`C72_segwit_pieces`).
* `C72_fee_undefined`: documents without segwit inputs have no amounts, and `fee` reads members nobody has written. `C72_fee_negative`: 0 if the outputs exceed the inputs.
* `C72_mark_undefined`, `C72_legacy_mark_undefined`: a public key in a document that starts with the byte 4, the mark of uncompressed points, makes `from_stream` read behind an array of 33 bytes (the fault of `C37_pub_overread`), for any of the inputs.
* `C72_sign_undefined`: `sign` does not look at the status; with inputs but no metadata it follows a null pointer.
* `C72_p2wsh`, `C72_nested_p2wsh`: an extended key of the type P2WSH (version bytes `Zpub`; `Ypub` in P2SH) announces an output to the hash of a script. `sign` signs such an input as if it spent an output to the hash of the key and counts it; the witness fits no output to the hash of a script, unless the script is the public key itself or has the same SHA-256.
* `C73_script_unchecked`, `C73_document`: `isMine` looks at the derivation entries of the output only; neither the script the output pays to nor the fingerprint of the entry counts. An output anyone can spend is reported as the wallet's if its entry names one of the wallet's keys.
* `C73_hardened`: `isMine` with an extended public key uses hardened indexes as if they were not, so that it misses outputs the private key finds.
* `C73_number_undefined`: an output number past the end reads memory after the array.
* `C74_short_first`, `C74_fresh_first`: the parse fails for good if the first piece is shorter than the prefix, or (for a new object) does not reach the value of the first pair.
* `C74_pair_lost`, `C74_input_field_lost`, `C74_output_field_lost`: a pair at the start of which, or inside the value of which, a piece ends is silently dropped; the parse still ends DONE.
* `C74_last_byte`: the parse never ends DONE if the last byte comes alone.
* `C74_key_lost`: a key inside which a piece ends is silently dropped, and the bytes that follow it (its value first) are read as the next pairs.
* `C74_mark_lost`: if a piece ends before the end mark of a map, the mark and the string behind it are dropped, and if the bytes behind that are the rest of a valid document, the parse ends DONE with their pairs added to the map that had ended.  When the mark is the last of the document (`post = []`), those bytes lie behind the document.
* `C74_between_fails`: the parse fails for good if a piece ends between a key and its value, after a pair whose value is not empty.  `C74_between_first_fails`: the same between the first key of a map and its value, when the map before ends with such a pair.
* `C74_between_lost`: if the value of the pair before is empty, the parse does not fail there: the pair is dropped without notice.
* `C58_uncompressed`: the signature for an entry with an uncompressed key is recorded under the compressed key.
* `C57_255_sections`: PSBTs with 255 inputs and outputs together are never DONE.
* `C57_utxo_252`: the position of the data in a value is computed from the length including the prefix, so values of 252 (or 65533 to 65535) bytes are read
  two bytes too late; a spent output of 252 bytes is silently taken for another one.
* C75 (`losses`, `C75_losses`, `C75_rest`): every `push(const Script)` onto a script loses the block of the serialized script, which nobody frees. Scripts in the middle of a length prefix may not be copied (`Allowed`): their length is ahead of their block.
* `C76_destroy`, `C76_clear_any`, `C76_assign_empty`, `C76_oversized`: `Witness::clear` frees its block and keeps the address; a witness that has held bytes and is empty when it is destroyed frees the block a second time.
* `C77_truncated_tx`, `C77_cut_tx`: a PSBT whose transaction ends early (any proper prefix of at least 5 bytes of a legacy transaction) is FAILED, and destroying or copying the object then follows pointers to metadata that was never allocated.
* `C77_bad_key`: a derivation entry whose key is no public key makes the parse FAILED with an entry whose path was never initialised; the destructor frees it.
* `C77_electrum_unread`: copies of Electrum objects with inputs but no metadata follow a null pointer.
* `C78_psbt_copy`, `C78_psbt_original`: a copy of an INCOMPLETE PSBT never becomes DONE, whatever it is fed, although the original does.
* `C78_electrum`: `is_segwit` is not copied; a copy of an Electrum object made near the end of a segwit document takes the remaining bytes for the start of another transaction.
* `C78_txin`: a copy of an input made inside its script takes the script for complete; with the next byte it shifts by a negative (huge) number of bits.
* `C79_psbt_newline`, `C79_failed_stays`: Base64 text of a PSBT followed by a line feed (or any one to three characters) is refused, return value 0; the object then refuses everything else. `C79_psbt_empty_undefined`: the empty text reads before the string. `C79_serialize_undefined`: `serialize(offset)` past the end.
* `C80_not_unique`, `C80_after_padding`: unused bits and everything after the first padding character are ignored, so that several texts decode to the same bytes.
* `C81_tx_input`: an eight-byte script length (`ff`, at least five more bytes) in any input of a transaction shifts an `int` by 32 bits or more (Script.cpp, the length loop): undefined behaviour that any peer who supplies the bytes can cause. `C81_script`, `C81_txin`, `C81_txout`, `C81_witness` say exactly on which bytes it happens; on bytes that are a transaction, or the beginning of one, it never happens, nor without a byte `ff` followed by four more bytes (`C81_tx`).
* `C82_length`, `C82_output`, `C82_previous`: eight-byte lengths of keys, of values, of the script of a spent output, of a script in a previous transaction. `C82_first`: also of the value of the first pair when the length of its key has been refused: the value is read before the status of the key is looked at. `C82_derivation`: a derivation entry with less than four bytes is read past its end (the fingerprint is copied without looking at the length, and the length of the path is computed from a negative number), and the 256th entry of an input or output is written into an array of length 0 because the counter has one byte. `C82_signature`: the same for the 256th signature. By `C82_only` there is no other way, and by `C82_document` documents inside the limits and their truncations are safe.
* `C83_toBase58Check_overread`: `String toBase58Check(array, n)` asks `toBase58Length` for `n + 4` bytes of an array of `n`: a payload of zero bytes only is read past its end. `C83_xprv_overread`: `xprv()` has a buffer of 112 characters; version bytes from 0x04b5e586 on (the largest of the library is 0x04b24746) give 112 characters and no terminating NUL.
* `C84_destroy`, `C84_overwrite`, `C84_clear_witness`, `C84_assign_input`: the double free of C76 inside inputs and transactions: after the witness of a signed input is cleared, or an unsigned input is assigned to a signed one, destroying the object, adding another input to the transaction or assigning to it frees the block again. `C84_rest` (`tallLosses`): copying or assigning a transaction without inputs or without outputs loses an array of no elements, since `delete []` is called only for arrays with elements.
* `C85_feed`, `C85_losses` (`hollow`): a count of inputs (behind marker and flag) or of outputs that is 0 makes `new TxIn[0]` or `new TxOut[0]`, whose block is never freed; 7 bytes of untrusted input do it. Otherwise parsing is as safe as the value model says (C81).
* `C86_long_overflows`: the comment of `mnemonic_to_seed` says that a passphrase of more than 256 characters is truncated; it is copied beyond the end of `salt` instead. `C86_stays`: the last four phrases and seeds stay in static memory, and no function (`mnemonic_clear` only wipes another buffer) removes them.
* `C87_reuse`: a PSBT object that holds a complete PSBT is given bytes that do not begin as one. `from_stream` has freed the metadata before it looks at the bytes and leaves the pointers in place; the call says FAILED, and the destructor uses and frees the same memory again. `C87_losses` (`ballLosses`, Spec/HeapPsbtLoss): blocks that stay behind for ever are the arrays of no elements made by copies and assignments (`new X[0]` for inputs or outputs without derivations or signatures), derivations with an empty path (`calloc(0)`), the two buffers of `add` when a script key of an output has the wrong length, and counts of 0 as in C85.
* `C88_six_inputs`: `from_stream` recognises segwit documents by a failed first witness and then assigns `Witness()` to the witness of every input; a witness that had been read by then has its array freed by that assignment but keeps the address (the fault of C76). With six inputs the sixth witness is read from the first amount; if that ends in the bytes 1, 0 the object is left with a dangling address. The call says DONE, and the destructor, an assignment to the object or parsing into it again frees the array a second time (`C88_spoiled`). Documents with up to five inputs do not do this (`C88_five`). `C88_losses` (`elosses`): the metadata and the two arrays of a transaction without inputs or outputs (`new X[0]`) are never freed, since `delete []` is called only if there are elements; so every parse into a new object loses up to three blocks (`C88_once`).
* `C89_pc_never`: on a PC `random32` is `(uint32_t)rand()`; `rand()` is never negative, so one bit of every four bytes of entropy is always 0, and phrases that need it are never generated. `C89_esp8266`: on the ESP8266 whole words are or-ed where bytes were meant, so that the upper bits are nearly always 1. `C89_prng`: on platforms without a generator the first phrase is always the same one. `C89_stm_not_ready`: a timeout of the generator of an STM32 gives the phrase of zeros, without an error.
* `C90_uniform_zero`: `random_uniform(0)` divides by zero. `C90_uniform_pc`: with `rand()` the upper half of the range is never drawn.
* `C91_not_begun`: after `end()` the context is zero, not initialised; an object that is used again without `begin()` gives wrong digests without any sign of it. `C91_tagged_begin`: `begin()` of a TaggedHash forgets the tag and makes it a plain SHA-256. `C91_base_begin`: `HashAlgorithm::begin` is not virtual, so that a call through the base class (as in `hashData`) does nothing. `C91_uninitialised`: `endHMAC` without `beginHMAC` hashes uninitialised memory. `C91_key_stays`: `end()` leaves the padded key of an HMAC in the object.
* `C92_decode_ones`: for a text of '1' characters only which is longer than the buffer, `b58tobin` reports success with a size larger than the buffer; `base58_decode_check` then computes a pointer in front of its array and hashes from there.
* `C93_der_zero_s`: for `s = 0` `ecdsa_sig_to_der` reads behind the 64 bytes of the signature (`sig[i] == 0` is tested before `i < 64`). `C93_der_zero_r`: for `r = 0` it looks at the first byte of `s`, and writes an empty integer, which is no DER.
* `C94_format_no_number`: an amount which is rounded to zero by a negative exponent is formatted without any digit if there are no decimals and a suffix (`str[0] == '\0'` looks at the suffix). `C94_format_overrun`: in a buffer that cannot hold prefix, suffix and the final zero together, memory beside the buffer is overwritten, whatever the amount (the test for the end of the room asks for equality with a place that has been passed already); nothing reports that the room is too small.
* `C95_after_final`: SHA3_FINALIZED is never seen by a caller, because `sha3_Final` wipes the context after setting it: a further `sha3_Update` divides by zero and a further `sha3_Final` writes before the array.
* `C96_wrong_order`: `quickSort` in Script.cpp would sort public keys in descending order, since `operator<` of points is reversed; nothing calls it.
* `C97_stm_not_ready`: `generate_k_random` never leaves its loop while the generator of an STM32 is not ready, because `random32` returns 0 then.
* `C98_returned_text_empty`: `sha256_End`, `sha256_Data`, `sha512_End`, `sha512_Data` return the pointer to the terminating zero, not the text (nothing in the library uses the value).
* `C99_duplicates_accepted`: a field given twice is accepted, and so is a second transaction in the global map (its value is not looked at). `C99_sign_twice`: `sign` appends its signatures without looking for old ones, so signing twice returns the same number twice and what is written afterwards has keys twice and is not a PSBT. `C99_signed_unique` says exactly when signing keeps the keys unique.
* `C100_flag_silent`: a transaction with a segwit flag other than 1 fails without setting `ubtc_errno`. `C100_codes_ambiguous`: so does a PSBT whose transaction ends early, and a PSBT with a wrong input or output in its transaction sets the codes 6 and 7, which are defined as those of wrong input and output maps (`UBTC_ERR_PSBT_IN`, `UBTC_ERR_PSBT_OUT`) but never used for these. Nothing resets the variable.
* `C101_index_wraps`: the number of the input is taken in 8 bits, so that asking for input 256 + k signs input k again and leaves the input asked for unsigned. `C101_witness_kept`: `signInput` does not remove the witness of the input, so that an input signed as segwit before is invalid after it is signed as a key hash input.
* `C102_short_text`, `C102_short_text_script`: with a text of less than 64 characters the input counts as valid; it refers to the transaction id zero and loses its output number and sequence number, or, if a script is given, refers to whatever has been in memory and loses the script. `C102_prefix_lost`: with `0x` in front of the id the input refers to the id zero. `C102_blank_shifts`: with a blank in front of it the last byte of the id becomes zero. `C102_tail_ignored`: characters behind the first 64 are ignored. `C102_bad_address`, `C102_regtest_anyone`, `C102_long_anyone`: an output made from a text which is not understood as an address counts as valid and has an empty script, so that anybody can spend it; this includes every correct witness address of Regtest.
* `C103_passed_on`: a signer that gets the PSBT another signer has written signs nothing, since the derivations, scripts and spent outputs are not written (C57); several signers must each get the original.
* C104: false for segwit addresses of Regtest and for legacy addresses of the main network whose text has less than 33 characters: the sender's output gets an empty script without any error, and everybody can spend it (`C104_regtest`, second part of `C104_legacy`).
* C105: the public text of a P2PKH account is an xpub without type, so the wallet made from it shows native segwit addresses instead of legacy ones, and a wallet made from the text of a Regtest key shows testnet segwit addresses (`C105_watch` gives equality exactly outside these two cases).
* C106: on Regtest, the coin type 1' switches the wallet to the test network, so the addresses of m/84'/1'/… begin with "tb" instead of "bcrt" (`C106_regtest`); in the same way a wallet made for the main network shows test addresses below coin type 1', and the other way round (`C106_any`).
* `C107_again`: the answer has lost the entries, so that a device that gets it returns 0 and the same text; a coordinator has to merge answers into the document it sent.
* C108: a script hash output (without segwit) of a script of more than 75 bytes (three compressed keys) cannot be spent with `push(script)`: the length is pushed as a number, not as an opcode (C108_legacy_long). On Regtest the sender's output for the segwit address has an empty script and can be spent by everybody (C108_regtest).
* C109: with a legacy or nested segwit output among those spent, txid() of the unsigned transaction is not that of the signed one (C109_id_changes; as in Bitcoin). More than 252 inputs: see C14_many_inputs_lost.
* C110: although the watch-only wallet of a P2PKH or Regtest account shows other addresses than the private wallet (C105), what is sent to them is not lost: the key that the private wallet derives along the same path spends it with signSegwitInput. The private wallet itself does not show these addresses.
* C111: no result depends on the draws. (Uninitialised memory read by `PSBT::sign` is the same in both runs by hypothesis; see C58.)
