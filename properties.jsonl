{"id": "C01", "title": "Hex encode/decode round trip", "statement": "Encoding any byte string with toHex into a large enough buffer yields exactly 2n lowercase hex digits (rest of the buffer zeroed), and decoding those digits (in either case) with fromHex gives back exactly the original bytes; if the output buffer is shorter than 2n characters toHex returns 0 and leaves it untouched.", "quantifier": "every byte string of every length, every output buffer size", "why_tests_cant": "The input space is every byte string; tests sample a few vectors and one buffer size.", "anchors": ["src/Conversion.cpp: toHex, fromHex, hexToVal"]}
{"id": "C02", "title": "fromHex decodes exactly the valid prefix and stays in bounds", "statement": "For any text, fromHex skips leading non-hex characters, decodes the longest run of complete hex pairs that follows, returns its byte count, zero-fills the rest, and never writes outside the caller's buffer.", "quantifier": "every character string (including garbage) and every destination buffer size", "why_tests_cant": "Out-of-bounds writes only show up for particular length combinations and are invisible to a unit test without instrumentation.", "anchors": ["src/Conversion.cpp: fromHex"]}
{"id": "C03", "title": "Binary-string encode/decode round trip", "statement": "Text produced by toBin from a byte string decodes with fromBin to the same byte string; fromBin of any 0/1 string yields the right-aligned big-endian number it spells, and any other character makes it return 0.", "quantifier": "every byte string of every length; every character string", "why_tests_cant": "Loop counters narrower than the index range only fail beyond a size nobody tests.", "anchors": ["src/Conversion.cpp: toBin, fromBin"]}
{"id": "C04", "title": "Base58 encoding is the mathematical base-58 numeral", "statement": "toBase58 writes one '1' per leading zero byte followed by the minimal base-58 numeral of the big-endian value, always fits in toBase58Length characters, returns its exact length and zero-fills the rest of the buffer.", "quantifier": "every byte string of every length and every sufficiently large buffer", "why_tests_cant": "The size estimate is a rational approximation of a logarithm; whether it is ever one short cannot be settled by sampling.", "anchors": ["src/Conversion.cpp: toBase58, toBase58Length"]}
{"id": "C05", "title": "Base58 decode inverts encode", "statement": "fromBase58(toBase58(b)) gives back b, byte for byte including leading zeros.", "quantifier": "every byte string of every length", "why_tests_cant": "The failing inputs are a sparse set of byte strings with leading zeros; random tests essentially never hit them.", "anchors": ["src/Conversion.cpp: fromBase58, fromBase58Length, toBase58"]}
{"id": "C06", "title": "Base58Check accepts only correctly checksummed text", "statement": "fromBase58Check returns a payload only if the decoded bytes end in the first four bytes of the double-SHA256 of that payload; on any failure it returns 0 and leaves the caller's buffer untouched; text produced by toBase58Check is accepted and gives the payload back whenever Base58 itself round-trips.", "quantifier": "every text, every payload, every 32-byte hash function", "why_tests_cant": "Acceptance must be refused for all but a 2^-32 fraction of texts; tests can only try a handful.", "anchors": ["src/Conversion.cpp: toBase58Check, fromBase58Check"]}
{"id": "C07", "title": "Base43 encode/decode round trip", "statement": "fromBase43(toBase43(b)) gives back b and toBase43 always fits in toBase43Length characters.", "quantifier": "every byte string of every length", "why_tests_cant": "Same sparse failure set as Base58.", "anchors": ["src/Conversion.cpp: toBase43, fromBase43, toBase43Length, fromBase43Length"]}
{"id": "C08", "title": "Base64 round trip in every flavour", "statement": "For each combination of padding and URL-safe flags, toBase64 writes exactly toBase64Length characters equal to the RFC 4648 encoding, and fromBase64 of that text with the same flags gives back the original bytes and its length equals fromBase64Length; no byte outside the given buffers is read or written.", "quantifier": "every byte string of every length including the empty one, all four flag combinations", "why_tests_cant": "Remainder handling depends on the length mod 3 and on flags; the empty input and end-of-buffer reads are not observable in ordinary tests.", "anchors": ["src/Conversion.cpp: toBase64, toBase64Length, fromBase64, fromBase64Length"]}
{"id": "C09", "title": "Endian integer conversions are inverse", "statement": "Writing an unsigned integer with intToLittleEndian/intToBigEndian into k<=8 bytes and reading it back gives the integer modulo 256^k; reading and writing any k<=8 bytes gives the same bytes; big-endian is the reverse of little-endian.", "quantifier": "every 64-bit integer and every width 0..8", "why_tests_cant": "2^64 values times nine widths.", "anchors": ["src/Conversion.cpp: littleEndianToInt, intToLittleEndian, bigEndianToInt, intToBigEndian"]}
{"id": "C10", "title": "Variable-length integers are canonical and self-delimiting", "statement": "writeVarInt writes exactly lenVarInt(n) bytes when they fit and nothing otherwise; readVarInt of those bytes followed by anything returns n; no encoding is a prefix of the encoding of a different integer; a truncated multi-byte encoding reads as 0 without reading past the buffer.", "quantifier": "every 64-bit integer, every buffer size, every following data", "why_tests_cant": "2^64 integers with boundaries at 0xfd, 2^16 and 2^32.", "anchors": ["src/Conversion.cpp: lenVarInt, readVarInt, writeVarInt"]}
{"id": "C11", "title": "Serialization in arbitrary windows", "statement": "Serializing a script, witness, input, output or transaction into a buffer of any size starting at any offset produces exactly that window of the complete serialization, and returns the number of bytes written.", "quantifier": "every object, every offset, every buffer size (so every way of cutting the stream into chunks)", "why_tests_cant": "Each object has (offset x size) many windows with boundary conditions at every field.", "anchors": ["src/Script.cpp: Script::to_stream, Witness::to_stream", "src/Transaction.cpp: TxIn::to_stream, TxOut::to_stream, Tx::to_stream", "src/BaseClasses.cpp: Streamable::serialize, SerializeByteStream"]}
{"id": "C12", "title": "length() equals the serialized size", "statement": "length() of a script, witness, input, output or transaction equals the number of bytes its complete serialization occupies.", "quantifier": "every object", "why_tests_cant": "Callers size buffers from it; a mismatch appears only at varint boundaries or particular element counts.", "anchors": ["src/Script.cpp: Script::length, Witness::length", "src/Transaction.cpp: TxIn::length, Tx::length"]}
{"id": "C13", "title": "Scripts and witnesses survive serialize/parse", "statement": "Parsing the serialization of a script or witness stack (followed by arbitrary data) completes, consumes exactly its length and reproduces the same content.", "quantifier": "every script of every length below 2^32 and every witness stack with fewer than 253 items, every trailing data", "why_tests_cant": "Unbounded contents and lengths across varint classes.", "anchors": ["src/Script.cpp: Script::from_stream, Script::to_stream, Witness::from_stream, Witness::to_stream"]}
{"id": "C14", "title": "Transactions survive serialize/parse", "statement": "Parsing the serialization of a transaction (followed by arbitrary data) completes, consumes exactly its length and reproduces version, inputs, outputs, witnesses and locktime; the serialization is the Bitcoin wire format.", "quantifier": "every transaction with any numbers of inputs and outputs, scripts and witnesses of any content", "why_tests_cant": "Unbounded structure; counts above 252 and mixed segwit inputs are rarely exercised.", "anchors": ["src/Transaction.cpp: Tx::from_stream, Tx::to_stream, TxIn::from_stream, TxOut::from_stream"]}
{"id": "C15", "title": "Chunked parsing equals one-shot parsing", "statement": "Feeding a serialized object to parse() in any sequence of pieces gives the same final status and object as feeding it in one piece.", "quantifier": "every input byte stream, every object kind (script, witness, input, output, transaction), every way to cut it into pieces", "why_tests_cant": "A stream of n bytes has 2^(n-1) cuts; bugs sit at single cut positions.", "anchors": ["src/Script.cpp: Script::from_stream, Witness::from_stream", "src/Transaction.cpp: TxIn::from_stream, TxOut::from_stream, Tx::from_stream"]}
{"id": "C16", "title": "Truncated data is never reported as parsed", "statement": "If parse() of some bytes ends with PARSING_DONE, then no strict prefix of the bytes it consumed would have ended with PARSING_DONE, and a failed parse stays failed whatever is fed next.", "quantifier": "every byte stream and every prefix of it", "why_tests_cant": "All prefixes of all streams.", "anchors": ["src/Script.cpp: Script::from_stream, Witness::from_stream", "src/Transaction.cpp: TxIn::from_stream, TxOut::from_stream, Tx::from_stream"]}
{"id": "C17", "title": "What is parsed is what was sent", "statement": "If parse() reports PARSING_DONE after consuming some bytes then re-serializing the object yields exactly those bytes; in particular two different byte strings never parse to the same object.", "quantifier": "every byte stream accepted by the parser", "why_tests_cant": "It is a statement about all accepted inputs, including adversarial non-canonical ones.", "anchors": ["src/Script.cpp: Script::from_stream, Witness::from_stream", "src/Transaction.cpp: TxIn::from_stream, TxOut::from_stream, Tx::from_stream"]}
{"id": "C18", "title": "Transaction id ignores witnesses and commits to everything else", "statement": "txid is the byte-reversed double-SHA256 of the legacy wire encoding: it does not depend on witnesses, and two transactions with the same preimage have the same version, inputs, outputs and locktime; wtxid hashes the complete segwit wire encoding including every witness.", "quantifier": "every transaction and every hash function", "why_tests_cant": "Universal over transactions, and injectivity of a preimage cannot be tested.", "anchors": ["src/Transaction.cpp: Tx::hash, Tx::whash, Tx::txid, Tx::wtxid"]}
{"id": "C19", "title": "Legacy signature hash preimage", "statement": "The legacy signature hash for an input is the double-SHA256 of the transaction with that input's script replaced by the given script code, all other input scripts emptied, followed by the hash type, for SIGHASH_ALL; other hash types follow the Bitcoin rules or are refused.", "quantifier": "every transaction, input index, script code and hash type", "why_tests_cant": "Universal over transactions; a sample only confirms particular shapes.", "anchors": ["src/Transaction.cpp: Tx::sigHash"]}
{"id": "C20", "title": "Segwit signature hash preimage", "statement": "The segwit signature hash equals the BIP143 digest for SIGHASH_ALL: double-SHA256 of version, hashPrevouts, hashSequence, outpoint, script code with length prefix, amount, sequence, hashOutputs, locktime and hash type; the preimage determines all those fields. An out-of-range input index never reads outside the transaction.", "quantifier": "every transaction, input index, script code, amount and hash type", "why_tests_cant": "Universal over transactions, and the out-of-range read is silent.", "anchors": ["src/Transaction.cpp: Tx::sigHashSegwit, Tx::hashPrevouts, Tx::hashSequence, Tx::hashOutputs"]}
{"id": "C21", "title": "Adding inputs and outputs", "statement": "addInput/addOutput append one element, keep all previous elements and their order, leave everything else unchanged, and return the new count.", "quantifier": "every transaction and every sequence of additions", "why_tests_cant": "Histories of any length; the returned counter is narrower than the stored one.", "anchors": ["src/Transaction.cpp: Tx::addInput, Tx::addOutput"]}
{"id": "C22", "title": "Script templates are recognised exactly", "statement": "type() returns P2PKH, P2SH, P2WPKH or P2WSH exactly for scripts of those standard shapes and nothing else; every script built by the library's constructors for a type is classified as that type.", "quantifier": "every script", "why_tests_cant": "All byte strings; in particular those differing in one template byte.", "anchors": ["src/Script.cpp: Script::type, pkh, wpkh, sh, wsh, Script::Script"]}
{"id": "C23", "title": "Script to address to script round trip", "statement": "For each standard script type and each built-in network, address() of the script followed by building a script from that address returns the original script; the address decodes on no input to a different script.", "quantifier": "every hash or witness program and every built-in network", "why_tests_cant": "2^160..2^256 programs per type; failing ones (leading zeros) are rare.", "anchors": ["src/Script.cpp: Script::address, Script::fromAddress", "src/utility/segwit_addr.c", "src/Conversion.cpp"]}
{"id": "C24", "title": "Building a script from untrusted address text is safe", "statement": "Building a script from any text either yields a script whose address is that text (up to letter case) or yields an empty script, and never writes outside its internal buffers.", "quantifier": "every character string", "why_tests_cant": "Adversarial text space; memory errors need specific witness versions and lengths.", "anchors": ["src/Script.cpp: Script::fromAddress", "src/utility/segwit_addr.c: segwit_addr_decode"]}
{"id": "C25", "title": "Script building appends and respects the size cap", "statement": "push of an opcode or raw data appends exactly those bytes and returns the new size; if the result would exceed 10000 bytes the script becomes empty and 0 is returned. After any sequence of pushes the size never exceeds 10000.", "quantifier": "every script and every sequence of pushes", "why_tests_cant": "Histories of any length.", "anchors": ["src/Script.cpp: Script::push"]}
{"id": "C26", "title": "Pushed data executes as one data push", "statement": "Pushing a public key, signature or script into a script appends one data-push element whose content, as the Bitcoin script interpreter splits it, is exactly the serialized key, signature plus hash type, or script.", "quantifier": "every key, every signature, every script up to 520 bytes", "why_tests_cant": "Push opcodes change form at 76 and 256 bytes.", "anchors": ["src/Script.cpp: Script::push(const PublicKey), Script::push(const Signature, SigHashType), Script::push(const Script)"]}
{"id": "C27", "title": "Multisig scripts", "statement": "multi(m, keys) is OP_m, each key pushed in order, OP_n, OP_CHECKMULTISIG for 1<=m<=n<=16 and empty otherwise; sortedmulti gives the same script for every ordering of the same keys.", "quantifier": "every threshold and every list of keys in every order", "why_tests_cant": "All permutations and thresholds.", "anchors": ["src/Script.cpp: multi, sortedmulti"]}
{"id": "C28", "title": "Witness stack building", "statement": "Pushing items onto a witness yields a stack that serializes as item count followed by length-prefixed items in push order and counts every item; if the total would exceed 10000 bytes the witness is cleared.", "quantifier": "every sequence of pushes", "why_tests_cant": "Histories of any length; the count at 253 items changes the length prefix.", "anchors": ["src/Script.cpp: Witness::push, Witness::to_stream", "src/Bitcoin.h: Witness::count"]}
{"id": "C29", "title": "Bech32 round trip and validity", "statement": "Whatever bech32_encode produces for a lowercase prefix and 5-bit data is accepted by bech32_decode, in lower case or upper case, and gives the same prefix and data; bech32_decode accepts only text of length 8..90 in a single letter case with a valid checksum.", "quantifier": "every prefix and every data list that fits; every text", "why_tests_cant": "All prefixes and data lists.", "anchors": ["src/utility/segwit_addr.c: bech32_encode, bech32_decode, bech32_polymod_step"]}
{"id": "C30", "title": "Bech32 detects corrupted characters", "statement": "Changing any one character of the data part of a valid Bech32 text to another data character makes it invalid, and likewise any two characters within the 90-character limit.", "quantifier": "every valid text and every substitution of one or two data characters", "why_tests_cant": "Number of texts times positions times replacements.", "anchors": ["src/utility/segwit_addr.c: bech32_decode, bech32_polymod_step"]}
{"id": "C31", "title": "Segwit address round trip and program validity", "statement": "segwit_addr_decode(segwit_addr_encode(v, program)) gives back v and program for every witness version 0..16 and valid program length; decode accepts only version <=16, program length 2..40 (20 or 32 for version 0), zero padding bits, and matching prefix.", "quantifier": "every version and program, every text", "why_tests_cant": "2^320 programs.", "anchors": ["src/utility/segwit_addr.c: segwit_addr_encode, segwit_addr_decode, convert_bits"]}
{"id": "C32", "title": "DER signatures round trip", "statement": "der() of any signature (r, s) is the strict DER encoding (minimal, positive integers, at most 72 bytes) and parsing it gives back the same r and s.", "quantifier": "every pair of 256-bit r and s", "why_tests_cant": "2^512 pairs; leading-zero and high-bit cases combine.", "anchors": ["src/Bitcoin.cpp: Signature::der, Signature::from_stream, Signature::rlen, Signature::slen"]}
{"id": "C33", "title": "DER parsing is strict", "statement": "If parsing a byte string as a signature reports success, the consumed bytes are exactly the DER encoding of the resulting signature; parsing never reads or writes outside its buffers.", "quantifier": "every byte string", "why_tests_cant": "Adversarial encodings (wrong lengths, padding, negative integers).", "anchors": ["src/Bitcoin.cpp: Signature::from_stream, Signature::fromDer"]}
{"id": "C34", "title": "Compact signatures round trip", "statement": "bin() then fromBin() restores r and s, for ECDSA and Schnorr signatures.", "quantifier": "every signature", "why_tests_cant": "2^512 values.", "anchors": ["src/Bitcoin.cpp: Signature::bin, Signature::fromBin, SchnorrSignature"]}
{"id": "C35", "title": "WIF round trip", "statement": "wif() of any private key on any network decodes with fromWIF to the same secret, compression flag and a network with the same WIF prefix; text with a wrong checksum, length or version is rejected and does not yield a usable key.", "quantifier": "every 256-bit secret, both compression flags, every network; every text", "why_tests_cant": "2^256 secrets; rejection is over all texts.", "anchors": ["src/Bitcoin.cpp: PrivateKey::wif, PrivateKey::fromWIF"]}
{"id": "C36", "title": "Public key serialization round trip", "statement": "sec() of any curve point, compressed or not, parses back to the same point; parsing accepts only encodings of points on the curve.", "quantifier": "every curve point; every byte string", "why_tests_cant": "About 2^256 points.", "anchors": ["src/BitcoinCurve.cpp: ECPoint::from_stream, ECPoint::to_stream, ECPoint::fromSec, ECPoint::sec"]}
{"id": "C37", "title": "Extended key serialization round trip", "statement": "Serializing an extended private or public key and parsing the text gives back the same key material, chain code, depth, parent fingerprint, child number, script type and a network with the same prefix.", "quantifier": "every extended key (all depths, indexes, script types, networks)", "why_tests_cant": "Huge product space.", "anchors": ["src/HDWallet.cpp: HDPrivateKey::to_bytes, HDPrivateKey::from_stream, HDPublicKey::to_bytes, HDPublicKey::from_stream"]}
{"id": "C38", "title": "Derivation path syntax", "statement": "derive(path) interprets the text as BIP32: optional leading 'm', components separated by '/', decimal number below 2^31, optional trailing h, H or apostrophe for hardened; it derives exactly those children in order, and any other text yields an invalid key.", "quantifier": "every character string", "why_tests_cant": "All strings; edge cases at the last component, empty components and overflow.", "anchors": ["src/HDWallet.cpp: HDPrivateKey::derive(const char *), HDPublicKey::derive(const char *)"]}
{"id": "C39", "title": "Child key bookkeeping", "statement": "Deriving child i of an extended key gives depth + 1, child number i and parent fingerprint equal to the first four bytes of hash160 of the parent's public key; script type and network follow the BIP44/49/84/48 path so far.", "quantifier": "every extended key and every index", "why_tests_cant": "All keys and indexes; depth wraps in a byte.", "anchors": ["src/HDWallet.cpp: HDPrivateKey::child, HDPublicKey::child, fingerprint"]}
{"id": "C40", "title": "Public and private derivation agree", "statement": "For every non-hardened index, deriving the child of the public extended key gives exactly the public extended key of the derived private child; deriving a hardened child from a public key is refused.", "quantifier": "every extended private key and every index, and every sequence of non-hardened indexes", "why_tests_cant": "Universal over keys; only algebra settles it.", "anchors": ["src/HDWallet.cpp: HDPrivateKey::child, HDPublicKey::child, HDPrivateKey::xpub"]}
{"id": "C41", "title": "Mnemonic encodes entropy reversibly", "statement": "For each supported entropy size the generated phrase passes checkMnemonic and decodes to the same entropy followed by its checksum bits.", "quantifier": "every entropy of 16, 20, 24, 28 or 32 bytes", "why_tests_cant": "2^128..2^256 values.", "anchors": ["src/utility/trezor/bip39.c: mnemonic_from_data, mnemonic_to_entropy, mnemonic_check"]}
{"id": "C42", "title": "Mnemonic check is exact", "statement": "checkMnemonic accepts a text only if it is exactly the phrase generated from its decoded entropy; decoding any text never writes outside its buffers.", "quantifier": "every character string", "why_tests_cant": "All strings.", "anchors": ["src/utility/trezor/bip39.c: mnemonic_check, mnemonic_to_entropy"]}
{"id": "C43", "title": "Hashing in pieces equals hashing at once", "statement": "For SHA-256, SHA-512 and RIPEMD-160, writing a message in any sequence of pieces (including empty and single-byte ones) then finishing gives the standard hash of the concatenation.", "quantifier": "every message and every way of cutting it", "why_tests_cant": "2^(n-1) cuts; block boundary cases interact.", "anchors": ["src/utility/trezor/sha2.c: sha256_Update, sha256_Final, sha512_Update, sha512_Final", "src/utility/trezor/ripemd160.c", "src/Hash.cpp"]}
{"id": "C44", "title": "HMAC follows RFC 2104", "statement": "HMAC-SHA256 and HMAC-SHA512 of any key and message equal H((K^opad) || H((K^ipad) || m)) with keys longer than the block hashed first, whether computed at once or in pieces.", "quantifier": "every key length, key and message", "why_tests_cant": "Key length classes around the block size; all messages.", "anchors": ["src/utility/trezor/hmac.c"]}
{"id": "C45", "title": "PBKDF2 follows RFC 2898", "statement": "The seed derived from a mnemonic is PBKDF2-HMAC-SHA512 with the given iteration count, no matter how the iterations are split for progress callbacks.", "quantifier": "every password, salt, iteration count and split of it", "why_tests_cant": "Iteration splits and all passwords.", "anchors": ["src/utility/trezor/pbkdf2.c", "src/HDWallet.cpp: HDPrivateKey::fromMnemonic"]}
{"id": "C46", "title": "Deterministic nonces follow RFC 6979", "statement": "The signing nonce candidates for (key, digest) are the RFC 6979 HMAC-DRBG sequence with SHA-256 and the first candidate in [1, n-1] that yields a valid signature is used.", "quantifier": "every key and digest", "why_tests_cant": "2^512 pairs.", "anchors": ["src/utility/trezor/rfc6979.c", "src/utility/trezor/ecdsa.c: ecdsa_sign_digest"]}
{"id": "C47", "title": "Big-number conversion", "statement": "Reading 32 big-endian (or little-endian) bytes gives a normalized number of that value and writing it back gives the same bytes.", "quantifier": "every 32-byte string", "why_tests_cant": "2^256 values.", "anchors": ["src/utility/trezor/bignum.c: bn_read_be, bn_write_be, bn_read_le, bn_write_le"]}
{"id": "C48", "title": "Big-number modular arithmetic", "statement": "Addition, subtraction, halving, multiplication and reduction compute the correct residue modulo the field prime or group order within the documented ranges, and no intermediate machine-word overflow changes the result.", "quantifier": "every pair of numbers in the documented ranges and every prime between 2^256-2^224 and 2^256", "why_tests_cant": "Carry and overflow bugs occur with probability around 2^-30 or less per random test.", "anchors": ["src/utility/trezor/bignum.c: bn_add, bn_addmod, bn_subtract, bn_subtractmod, bn_mult_half, bn_mult_k, bn_multiply, bn_fast_mod, bn_mod, bn_lshift, bn_rshift"]}
{"id": "C49", "title": "Modular inverse", "statement": "bn_inverse returns the inverse modulo the prime of every nonzero residue and terminates.", "quantifier": "every nonzero residue modulo the field prime or group order", "why_tests_cant": "2^256 inputs through a data-dependent loop.", "anchors": ["src/utility/trezor/bignum.c: bn_inverse"]}
{"id": "C50", "title": "Point addition and multiplication implement the curve group", "statement": "Point addition, doubling and scalar multiplication return the sum, double and multiple in the secp256k1 group, including infinity, equal and opposite points, whatever the side-channel randomization.", "quantifier": "every pair of curve points, every scalar below the order, every random stream", "why_tests_cant": "Exceptional cases (doubling inside the ladder, infinity) have negligible probability in random tests.", "anchors": ["src/utility/trezor/ecdsa.c: point_add, point_double, point_multiply, scalar_multiply, point_jacobian_add, point_jacobian_double"]}
{"id": "C51", "title": "Signatures verify", "statement": "Whatever ecdsa_sign_digest produces for a private key in [1, n-1] and a digest not congruent to 0 is accepted by ecdsa_verify_digest with the corresponding public key.", "quantifier": "every private key, every digest, every random stream", "why_tests_cant": "2^512 pairs.", "anchors": ["src/utility/trezor/ecdsa.c: ecdsa_sign_digest, ecdsa_verify_digest", "src/Bitcoin.cpp: PrivateKey::sign, PublicKey::verify"]}
{"id": "C52", "title": "Signatures are canonical", "statement": "Every signature produced has r and s in [1, n-1] and s at most n/2.", "quantifier": "every private key, digest and random stream", "why_tests_cant": "2^512 pairs.", "anchors": ["src/utility/trezor/ecdsa.c: ecdsa_sign_digest"]}
{"id": "C53", "title": "Schnorr signatures verify", "statement": "Whatever schnorr_sign produces is accepted by schnorr_verify with the key's public key.", "quantifier": "every private key and message", "why_tests_cant": "2^512 pairs; parity cases.", "anchors": ["src/Bitcoin.cpp: PrivateKey::schnorr_sign, PublicKey::schnorr_verify"]}
{"id": "C54", "title": "ECDH is symmetric", "statement": "Both parties of an ECDH exchange derive the same shared secret.", "quantifier": "every pair of private keys", "why_tests_cant": "2^512 pairs.", "anchors": ["src/Bitcoin.cpp: PrivateKey::ecdh"]}
{"id": "C55", "title": "PSBT fee", "statement": "fee() is the sum of input amounts minus the sum of output amounts when every input amount is known and outputs do not exceed inputs, and 0 otherwise.", "quantifier": "every PSBT with any numbers of inputs and outputs and any amounts", "why_tests_cant": "64-bit wrap-around in sums.", "anchors": ["src/PSBT.cpp: PSBT::fee"]}
{"id": "C56", "title": "Previous transactions are authenticated", "statement": "A PSBT input's amount and script taken from a full previous transaction are recorded only if that transaction's id equals the outpoint's id and the outpoint index exists; otherwise the PSBT is rejected.", "quantifier": "every PSBT and every claimed previous transaction", "why_tests_cant": "Adversarial previous transactions; all of them.", "anchors": ["src/PSBT.cpp: PSBT::add"]}
{"id": "C57", "title": "PSBT survives serialize/parse", "statement": "Parsing the serialization of a PSBT reproduces the transaction, per-input and per-output data.", "quantifier": "every PSBT", "why_tests_cant": "Unbounded key-value maps; sizes at varint boundaries.", "anchors": ["src/PSBT.cpp: PSBT::from_stream, PSBT::to_stream, PSBT::length"]}
{"id": "C58", "title": "PSBT signing touches only what it should", "statement": "sign() adds a partial signature to an input only for a derivation recorded in that input whose derived key equals the recorded public key, each added signature is over the proper digest of that input, and nothing else in the PSBT changes.", "quantifier": "every PSBT and every root key", "why_tests_cant": "All PSBTs, all key sets.", "anchors": ["src/PSBT.cpp: PSBT::sign"]}
{"id": "C59", "title": "Descriptor checksum", "statement": "descriptorChecksum computes the BIP380 checksum for every text over the descriptor alphabet and rejects other characters; texts that differ in one character have different checksums.", "quantifier": "every character string", "why_tests_cant": "All strings and all single-character changes.", "anchors": ["src/PSBT.cpp: descriptorChecksum, PolyMod"]}
{"id": "C60", "title": "Hex parse streams equal raw parse streams", "statement": "Parsing hex text of some bytes behaves exactly like parsing the bytes; hex text containing a non-hex character is never reported as successfully parsed.", "quantifier": "every byte string and every text", "why_tests_cant": "All texts; the bad character can be anywhere.", "anchors": ["src/BaseClasses.cpp: ParseByteStream::read, ParseByteStream::available", "src/BaseClasses.cpp: SerializeByteStream::write"]}
{"id": "C61", "title": "Secret scalar arithmetic is modular", "statement": "Private key addition, subtraction, negation and multiplication are the ring operations modulo the group order and always return a fully reduced value.", "quantifier": "every pair of scalars", "why_tests_cant": "2^512 pairs; zero is an edge case.", "anchors": ["src/BitcoinCurve.cpp: ECScalar operators"]}
{"id": "C62", "title": "Point ordering and equality", "statement": "Comparison of public keys is a strict total order consistent with the lexicographic order of their serializations, as needed for sorted multisig.", "quantifier": "every pair and triple of keys", "why_tests_cant": "All pairs.", "anchors": ["src/BitcoinCurve.cpp: ECPoint::operator<, ECPoint::operator=="]}
{"id": "C63", "title": "Public key recovery", "statement": "From the signature and the recovery byte that ecdsa_sign_digest produces, ecdsa_recover_pub_from_sig computes exactly the public key of the signer.", "quantifier": "every private key in [1, n-1], digest and random stream", "why_tests_cant": "2^512 pairs; the recovery byte depends on rare events (abscissa at or above n).", "anchors": ["src/utility/trezor/ecdsa.c: ecdsa_sign_digest, ecdsa_recover_pub_from_sig"]}
{"id": "C64", "title": "Public key arithmetic is the group operation", "statement": "Adding, subtracting, negating and multiplying public keys by a scalar compute the elliptic-curve group operation for every pair of points including equal, opposite and infinite ones, and multiplication distributes over addition of scalars.", "quantifier": "every pair of points on the curve and every scalar", "why_tests_cant": "2^512 pairs; doubling, opposite points and infinity are separate branches.", "anchors": ["src/BitcoinCurve.cpp: ECPoint operators"]}
{"id": "C65", "title": "Secrets read from streams", "statement": "ECScalar and PrivateKey read from a stream accept exactly 32 bytes split into any pieces, hold their value modulo the group order, carry the matching public key, leave following bytes unread and refuse the zero key; constructing from raw bytes gives the same key.", "quantifier": "every 32 bytes and every split into pieces", "why_tests_cant": "2^256 keys times 2^31 splits; keys at or above the order are never hit by chance.", "anchors": ["src/BitcoinCurve.cpp: ECScalar::from_stream", "src/Bitcoin.cpp: PrivateKey::from_stream, PrivateKey::setSecret"]}
{"id": "C66", "title": "Signing and verifying with key objects", "statement": "PrivateKey::sign returns the RFC 6979 low-s signature with its recovery index, PublicKey::verify accepts exactly the valid ECDSA signatures for the key in compressed or uncompressed form, and every signature made by sign verifies under the matching public key.", "quantifier": "every private key, digest, key form and random stream", "why_tests_cant": "2^512 pairs; also quantifies over forged signatures.", "anchors": ["src/Bitcoin.cpp: PrivateKey::sign, PublicKey::verify"]}
{"id": "C67", "title": "Master key from seed", "statement": "fromSeed sets the extended private key to the BIP32 master key: HMAC-SHA512 keyed 'Bitcoin seed' of the seed, left half the secret, right half the chain code, depth 0, no parent, with the matching public key; seeds giving an invalid secret yield an invalid key.", "quantifier": "every seed of every length and every network", "why_tests_cant": "Infinitely many seeds; the invalid secret is hit with probability 2^-128.", "anchors": ["src/HDWallet.cpp: HDPrivateKey::fromSeed"]}
{"id": "C68", "title": "Seed from mnemonic phrase", "statement": "fromMnemonic uses the BIP39 seed: PBKDF2-HMAC-SHA512 of the phrase with salt 'mnemonic' followed by the password, 2048 rounds, 64 bytes, for passwords of every length, and gives the master key of that seed.", "quantifier": "every phrase and every password", "why_tests_cant": "Infinitely many texts; a long password exercises a buffer of fixed size.", "anchors": ["src/HDWallet.cpp: HDPrivateKey::fromMnemonic", "src/utility/trezor/bip39.c: mnemonic_to_seed"]}
{"id": "C69", "title": "Verification with an extended public key", "statement": "verify on an HDPublicKey accepts exactly the signatures that the plain PublicKey with the same point accepts.", "quantifier": "every extended public key, signature and digest", "why_tests_cant": "Quantifies over all signatures; dispatch through a virtual serializer is invisible for plain keys.", "anchors": ["src/Bitcoin.cpp: PublicKey::verify", "src/HDWallet.cpp: HDPublicKey::to_stream"]}
{"id": "C70", "title": "Addresses of keys", "statement": "legacyAddress, segwitAddress and nestedSegwitAddress of a public key are the addresses of the P2PKH, P2WPKH and P2SH-P2WPKH scripts of the key and return the length of the text; a private key and an extended private key give the addresses of their public keys, chosen by the script type.", "quantifier": "every key, network and buffer size", "why_tests_cant": "2^256 keys and every buffer size.", "anchors": ["src/Bitcoin.cpp: PublicKey::legacyAddress, segwitAddress, nestedSegwitAddress", "src/HDWallet.cpp: address"]}
{"id": "C71", "title": "Signing a transaction input", "statement": "After signInput or signSegwitInput for an input, the input satisfies Bitcoin's rules for the output it is meant to spend: key hash outputs (legacy, segwit, nested) for the signing key, and script hash outputs for scripts that ask for one signature of the key. The signature is over the digest of Bitcoin's rules and carries the requested hash type; nothing but the script and witness of that input changes, and whether other inputs are satisfied does not change, so inputs may be signed in any order.", "quantifier": "every transaction with fewer than 253 inputs and outputs, every input, every private key, every script for one key, every amount and script type", "why_tests_cant": "Space of transactions, scripts and keys is unbounded; tests compare a few signed transactions.", "anchors": ["src/Transaction.cpp: Tx::signInput", "src/Transaction.cpp: Tx::signSegwitInput"]}
{"id": "C72", "title": "Unsigned transactions of the Electrum wallet", "statement": "Parsing an Electrum document, in one piece or in several, yields the transaction, and for every input the amount, extended key and derivation the document states; a malformed document is refused in finitely many steps. fee is the sum of the stated amounts minus the outputs. sign with an account key signs exactly the inputs whose extended key belongs to the account, each with the key the derivation leads to, so that they satisfy Bitcoin's rules for the output spent; it changes nothing else and returns the number of inputs signed.", "quantifier": "every transaction with fewer than 253 inputs and outputs, every amount, extended key and derivation, every way of cutting the document, every account key", "why_tests_cant": "The space of documents is unbounded; the repository's test parses single documents with few inputs.", "anchors": ["src/Electrum.cpp: ElectrumTx::from_stream", "src/Electrum.cpp: ElectrumTx::sign", "src/Electrum.cpp: ElectrumTx::fee"]}
{"id": "C73", "title": "Which PSBT outputs belong to a key", "statement": "isMine(n, key) is true exactly if output n of the parsed document pays to the wallet of the key: it has a derivation entry whose path leads from the key to the recorded public key and its script pays to that key. The extended public key gives the same answer as its extended private key, and an output number that does not exist is refused.", "quantifier": "every parsed document, output number, extended private or public key, path", "why_tests_cant": "Paths, keys and documents are unbounded; that a change output is never mistaken is a statement about all scripts.", "anchors": ["src/PSBT.cpp: isMine (both overloads)"]}
{"id": "C74", "title": "A PSBT delivered in several pieces", "statement": "Parsing a PSBT from any sequence of pieces, calling the parser until it no longer reports INCOMPLETE, gives the same document as parsing all bytes at once: every pair is recorded, and the parse is DONE exactly when the last byte has been delivered.", "quantifier": "every document, every way of cutting its bytes into pieces", "why_tests_cant": "The number of ways to cut a document grows exponentially with its length; a lost pair shows only if a cut falls on it.", "anchors": ["src/PSBT.cpp: PSBT::from_stream"]}
{"id": "C75", "title": "Scripts and witnesses behave as values on the heap", "statement": "Any program that constructs, copies, assigns, fills, clears, parses and destroys any number of Script and Witness objects runs without memory error (no use of freed memory, no access outside a block, no block freed twice); each object has at every point the contents it would have if objects were plain values, so changing or destroying a copy never changes the original; and when all objects are gone no memory is left in use. For scripts without parsing the absence of memory errors holds whatever allocations fail.", "quantifier": "every finite sequence of statements over any number of objects, every allocator", "why_tests_cant": "The number of programs is unbounded; aliasing and lifetime errors show only for particular orders of copies, assignments and destructions, and often silently.", "anchors": ["src/Script.cpp: Script constructors, operator=, push, clear, from_stream; Witness constructors, operator=, push, clear, from_stream", "src/Bitcoin.h: ~Script, ~Witness"]}
{"id": "C76", "title": "The end of the lifetime of a witness", "statement": "Destroying a Witness object is well defined whatever has been done with it before: its memory is given back once.", "quantifier": "every finite sequence of statements before the destructor, every allocator", "why_tests_cant": "Whether the memory has already been given back depends on the whole history of the object; a double free usually shows no symptom in a test.", "anchors": ["src/Script.cpp: Witness::clear, Witness::push, Witness::operator=", "src/Bitcoin.h: ~Witness"]}
{"id": "C77", "title": "The life of a PSBT object", "statement": "Whatever bytes a PSBT object has been given, in whatever pieces and with whatever result, it can be destroyed, copied and assigned without memory error, and a copy of a completely parsed PSBT or Electrum document is the same document.", "quantifier": "every sequence of pieces of bytes, every object so obtained", "why_tests_cant": "Memory errors in destructors show no symptom in most test runs, and depend on where exactly a parse stopped: there are unboundedly many inputs that end a parse half way.", "anchors": ["src/PSBT.cpp: PSBT::from_stream, PSBT::add, ~PSBT, copy constructor, operator=", "src/Electrum.cpp: copy constructor, operator="]}
{"id": "C78", "title": "A copy made during a parse", "statement": "An object copied while its parse is INCOMPLETE can go on parsing like the original: fed the remaining bytes it ends in the same state as the original fed the same bytes.", "quantifier": "every object, every point at which the copy is made, every continuation", "why_tests_cant": "The copy differs from the original only in members that matter for particular cut positions; the number of documents, cuts and continuations is unbounded.", "anchors": ["src/PSBT.cpp: PSBT(PSBT const &), PSBT::operator=, PSBT::from_stream", "src/Transaction.cpp: TxIn::from_stream", "src/Electrum.cpp: ElectrumTx(ElectrumTx const &), ElectrumTx::operator=", "src/Script.cpp: Script(const Script &), Script::operator="]}
{"id": "C79", "title": "Text and Base64 forms of objects", "statement": "toString() and serialize(offset, len) give the lower case hex text of the bytes (or of the asked part) that to_stream writes, and parse of hex text in either case is parse of the bytes. toBase64() of a PSBT is the standard padded Base64 text of its serialization; parseBase64 of the Base64 text of a document parses that document and returns its number of bytes; text that is not Base64 is refused with return value 0.", "quantifier": "every transaction, PSBT document and byte string, every offset and length, every text", "why_tests_cant": "Lengths, remainders modulo three and four, letter cases and malformed texts are unbounded.", "anchors": ["src/BaseClasses.cpp: Readable::toString, Streamable::serialize(offset, len)", "src/BaseClasses.h: Streamable::parse(String)", "src/Conversion.cpp: toHex(String), toBase64(String), base64ToHex, hexToBase64", "src/PSBT.cpp: PSBT::parseBase64, PSBT::toBase64"]}
{"id": "C80", "title": "Base64 decoding of arbitrary text", "statement": "fromBase64 with padding, on any text that is not empty and any buffer, stays within both; with a buffer of fromBase64Length bytes it returns the bytes of the text if the text is Base64 and 0 with a zeroed buffer otherwise. Each byte string has only one text that decodes to it.", "quantifier": "every text, every buffer size, standard and URL-safe alphabets", "why_tests_cant": "The set of malformed texts is infinite; which ones slip through is not visible from round trips of valid ones.", "anchors": ["src/Conversion.cpp: fromBase64, fromBase64Length"]}
{"id": "C81", "title": "Parsing untrusted bytes has no undefined behaviour", "statement": "Parsing any bytes into a Script, TxIn, TxOut, Witness or Tx, in one piece or in several, executes no undefined behaviour (no out-of-range shift, no signed overflow, no access outside an array).", "quantifier": "every byte string, every way to cut it into pieces, every state of the object that is not in the middle of a parse", "why_tests_cant": "Undefined behaviour usually does not show in a test, and the bytes that trigger it are chosen by an attacker.", "anchors": ["src/Script.cpp: Script::from_stream, Witness::from_stream", "src/Transaction.cpp: TransactionInput::from_stream, TransactionOutput::from_stream, Transaction::from_stream"]}
{"id": "C82", "title": "Parsing untrusted PSBT bytes has no undefined behaviour", "statement": "Parsing any bytes into a PSBT object executes no undefined behaviour: no shift out of range, no access outside an array or of memory that was not initialised.", "quantifier": "every byte string, every new or cleanly parsed object", "why_tests_cant": "PSBT files come from other, possibly malicious, software; undefined behaviour usually does not show in a test and depends on combinations of pairs and sizes that no test suite enumerates.", "anchors": ["src/PSBT.cpp: PSBT::from_stream, PSBT::add, PSBTInputMetadata::add, PSBTOutputMetadata::add, PSBTDerivation", "src/Script.cpp: Script::from_stream", "src/Transaction.cpp: from_stream"]}
{"id": "C83", "title": "Functions returning a String give the text of their buffer versions", "statement": "The overloads of toBin, toBase58, toBase58Check and toBase43 which return a String, and wif(), xprv(), xpub(), fingerprint(), txid(), wtxid(), sec(), x() and Script::address(), return exactly the text their contents have in the respective encoding, without reading or writing outside their buffers, whatever was in memory before.", "quantifier": "every byte string, key, transaction and script", "why_tests_cant": "The buffers are sized from the input or fixed to the longest expected text; whether every text fits with its terminating NUL depends on all values and lengths, and an out of bounds read rarely shows in a test.", "anchors": ["src/Conversion.cpp: String toBin, toBase58, toBase58Check, toBase43", "src/Bitcoin.cpp: PrivateKey::wif()", "src/HDWallet.cpp: xprv(), xpub(), fingerprint()", "src/Transaction.cpp: txid(), wtxid()", "src/BitcoinCurve.h: ECPoint::sec(), x()", "src/Script.cpp: Script::address(network)"]}
{"id": "C84", "title": "Inputs, outputs and transactions own their memory", "statement": "Constructing, copying, assigning, extending (addInput, addOutput) and destroying TxIn, TxOut and Tx objects and changing the scripts and witnesses in them never uses memory that is not owned, never frees a block twice and loses none: every object keeps its contents whatever happens to the objects it was copied from or added to, and when all objects are gone no memory is left in use.", "quantifier": "every program of such statements, with any number of variables, inputs, outputs and statements, and any contents", "why_tests_cant": "Aliasing and double frees depend on the order of copies, assignments, additions and destructions; there are unboundedly many orders, and a use after free usually goes unnoticed in a test.", "anchors": ["src/Transaction.cpp: TxIn, TxOut, Tx constructors, operator=, ~Tx, addInput, addOutput", "src/Bitcoin.h: class TxIn, TxOut, Tx", "src/Script.cpp: Script, Witness copy, operator=, clear, destructors"]}
{"id": "C85", "title": "Parsing inputs, outputs and transactions from untrusted bytes keeps memory intact", "statement": "Parsing any bytes, in pieces of any sizes, into TxIn, TxOut and Tx objects, mixed with copying, assigning, extending and destroying them and with abandoning a parse in the middle, never uses memory that is not owned and never frees a block twice; other objects keep their contents; every call returns and reports what the bytes determine, independently of the memory; and once the objects are gone no memory is left in use.", "quantifier": "every byte string, every division into pieces, every program of such statements", "why_tests_cant": "The state between two calls (allocated arrays of sub-objects, partially read scripts and witnesses) depends on where each piece ends; there are exponentially many divisions and unboundedly many inputs, and corruption of the heap usually goes unnoticed in a test.", "anchors": ["src/Transaction.cpp: TxIn::from_stream, TxOut::from_stream, Tx::from_stream, clear, destructors", "src/Script.cpp: Script::from_stream, Witness::from_stream, realloc of the witness array"]}
{"id": "C86", "title": "Seeds of mnemonics do not depend on earlier calls or on progress reports", "statement": "mnemonic_to_seed gives the BIP39 seed of its arguments, the one fromMnemonic uses, whatever calls came before (its cache never answers with another text's seed) and never writes outside its buffers; a progress callback sees 0, 128, ..., 2048 of 2048, or nothing when the pair is among the last four computed with fewer than 256 and 64 characters; the callback of HDPrivateKey::fromMnemonic sees eight growing fractions ending with 1 and does not change the key.", "quantifier": "every sequence of calls with any texts, every contents of uninitialised memory", "why_tests_cant": "The answer depends on a cache of four places filled by an unbounded history of calls with texts of any length, whose buffers keep remains of longer texts.", "anchors": ["src/utility/trezor/bip39.c: mnemonic_to_seed, bip39_cache", "src/utility/trezor/pbkdf2.c: pbkdf2_hmac_sha512_Init, Update, Final", "src/HDWallet.cpp: HDPrivateKey::fromMnemonic"]}
{"id": "C87", "title": "PSBT objects keep memory intact whatever is parsed into them", "statement": "Any program that constructs PSBT objects, parses bytes into them in pieces, copies and assigns complete ones and ends their lifetimes never uses memory that is not owned and never frees a block twice; a copy shares nothing with its original; every call of the parser returns and reports what the bytes determine, independently of the memory; and once the objects are gone no memory is left in use.", "quantifier": "every byte string, every division into pieces, every program of such statements with any number of objects, inputs, outputs, derivations and signatures", "why_tests_cant": "The arrays of metadata, derivations and paths are reallocated, shared for a moment and copied field by field; which addresses are live depends on the history of all calls, and corruption of the heap usually goes unnoticed in a test.", "anchors": ["src/PSBT.cpp: PSBT::from_stream, PSBT::add, PSBT::PSBT(PSBT const&), PSBT::operator=, PSBT::~PSBT", "src/PSBT.h: PSBTInputMetadata, PSBTOutputMetadata, PSBTDerivation"]}
{"id": "C88", "title": "Electrum transaction objects keep memory intact whatever is parsed into them", "statement": "Any program that constructs ElectrumTx objects, parses bytes into them in pieces, copies and assigns complete ones and ends their lifetimes never uses memory that is not owned and never frees a block twice; a copy shares nothing with its original and still holds the document when the original is gone; every call of the parser returns and reports what the bytes determine, independently of the memory; and once the objects are gone no memory is left in use.", "quantifier": "every byte string, every division into pieces, every program of such statements with any number of objects and inputs", "why_tests_cant": "The transaction parser is made to fail on purpose and its remains are reused; whether an address in the remains is still owned depends on the amounts and the number of inputs, and a second free usually goes unnoticed in a test.", "anchors": ["src/Electrum.cpp: ElectrumTx::from_stream, ElectrumTx::ElectrumTx(ElectrumTx const&), ElectrumTx::operator=, ElectrumTx::~ElectrumTx", "src/Script.cpp: Witness::operator=, Witness::clear"]}
{"id": "C89", "title": "Random phrases carry all the randomness drawn", "statement": "generateMnemonic(n) for 12, 15, 18, 21 or 24 words is the BIP39 phrase of the words that random32 returns, least significant byte first; every phrase of that length can come out, and two calls give the same phrase only if they drew the same words, so that a uniform random32 gives uniform phrases. Other counts return NULL and draw nothing.", "quantifier": "every sequence of values of random32, every count of words, every state of the static buffer", "why_tests_cant": "A test can look at a few phrases from a fixed generator; that no entropy is dropped or repeated is a statement about all sequences of draws, and about the generators that each platform provides.", "anchors": ["src/Bitcoin.cpp: generateMnemonic", "src/utility/trezor/bip39.c: mnemonic_generate", "src/utility/trezor/rand.c: random32, random_buffer"]}
{"id": "C90", "title": "Random numbers of a range are uniform and permutations fair", "statement": "random_uniform(n) returns a number below n, and exactly as many values of random32 lead to each of them; the loop goes on only over values that belong to none. random_permute stays within the characters, returns them in another order, and every order of distinct characters comes from exactly one choice of the numbers drawn.", "quantifier": "every n, every sequence of values of random32, every text", "why_tests_cant": "Uniformity is a statement about all 2^32 values and all n; off-by-one errors in the limit or in the range of the swap show up only as a slight bias.", "anchors": ["src/utility/trezor/rand.c: random_uniform, random_permute"]}
{"id": "C91", "title": "Hash objects can be used again", "statement": "Whatever has been done with a hash object before, begin(), any writes and end() give the digest of exactly the bytes written since begin(), and beginHMAC(key), any writes and endHMAC() the HMAC of them; endHMAC() leaves nothing of the key in the object. An object that was ended and is written to again gives the right digest as well, or begin() starts it as its constructor did.", "quantifier": "every class (RMD160, SHA256, TaggedHash, Hash160, DoubleSha, SHA512), every sequence of calls before, every key and every division of the message into pieces", "why_tests_cant": "What is left in the context depends on everything that was called before; tests use an object once.", "anchors": ["src/Hash.h: HashAlgorithm, RMD160, SHA256, TaggedHash, Hash160, DoubleSha, SHA512", "src/Hash.cpp", "src/utility/trezor/hmac.c"]}
{"id": "C92", "title": "Base58Check functions of the trezor code", "statement": "base58_encode_check writes the Base58Check text (with one '1' per leading zero byte) of every data of at most 128 bytes, terminated, or nothing and 0 if it does not fit. base58_decode_check accepts exactly the Base58Check texts of payloads which fit into the buffer and gives back the payload, whatever text it is given, and uses only its own memory.", "quantifier": "every hash function, every data, every text, all sizes of the buffers", "why_tests_cant": "Exactness and memory safety range over all texts; the estimate of the size and the early end of the inner loop must be right for every length and value.", "anchors": ["src/utility/trezor/base58.c: b58tobin, b58check, b58enc, base58_encode_check, base58_decode_check"]}
{"id": "C93", "title": "DER, addresses and WIF of the trezor code", "statement": "ecdsa_sig_to_der writes the DER encoding of every signature and returns its length (at most 72). ecdsa_get_address, ecdsa_get_address_segwit_p2sh and ecdsa_get_wif write the Base58Check text of the version (1 to 4 bytes, as many as it needs) followed by the hash of the key, the hash of the witness program, or the key and 01 - for Bitcoin the same texts as the library's own functions. ecdsa_address_decode accepts exactly the Base58Check texts of the version followed by 20 bytes.", "quantifier": "every signature, key, version of 32 bits, text, hash function and size of the output buffer", "why_tests_cant": "The length of the prefix, of the integers and of the text depend on the values; exactness of decoding ranges over all texts.", "anchors": ["src/utility/trezor/ecdsa.c: ecdsa_sig_to_der, ecdsa_get_pubkeyhash, ecdsa_get_address, ecdsa_get_address_segwit_p2sh, ecdsa_get_wif, ecdsa_address_decode", "src/utility/trezor/address.c: address_prefix_bytes_len, address_write_prefix_bytes, address_check_prefix"]}
{"id": "C94", "title": "Bits, decimal digits and amounts", "statement": "bn_testbit, bn_setbit, bn_clearbit, bn_xor and bn_bitcount do what they say to the number. bn_divmod58 and bn_divmod1000 give quotient and remainder, bn_digitcount the number of decimal digits. bn_format writes the prefix, the amount (scaled by a power of ten, with the wanted number of decimals, with or without the zeros at the end) and the suffix, terminated, and returns the length; it returns 0 if that does not fit.", "quantifier": "every normalised number below 10^78, every bit, exponent, number of decimals, prefix, suffix and size of the buffer", "why_tests_cant": "The digits are taken from nine limbs of 30 bits in groups of three; the text depends on the position of the point relative to the digits, on the zeros at the end and on the room that is left.", "anchors": ["src/utility/trezor/bignum.c: bn_bitcount, bn_digitcount, bn_setbit, bn_clearbit, bn_testbit, bn_xor, bn_divmod58, bn_divmod1000, bn_format"]}
{"id": "C95", "title": "SHA-3 and the hashers", "statement": "sha3_224/256/384/512_Init, sha3_Update and sha3_Final compute SHA-3 of FIPS 202 however the message is cut into pieces and wherever the pieces lie in memory. hasher_Init, hasher_Update, hasher_Final and hasher_Raw compute SHA-256, double SHA-256, HASH160 and SHA3-256; hasher_Reset forgets what was fed before. Every access stays inside the context.", "quantifier": "every message, every sequence of pieces of any sizes and alignments, the four sizes of digests and the four types of hashers", "why_tests_cant": "The permutation is written with unrolled rotations, a chain of 24 moves and a table of constants; partial blocks, unaligned blocks and the padding that fits into one byte depend on lengths and addresses.", "anchors": ["src/utility/trezor/sha3.c: keccak_Init, keccak_theta, keccak_pi, keccak_chi, sha3_permutation, sha3_process_block, sha3_Update, sha3_Final", "src/utility/trezor/hasher.c: hasher_Init, hasher_Reset, hasher_Update, hasher_Final, hasher_Raw"]}
{"id": "C96", "title": "The sort of public keys", "statement": "quickSort in Script.cpp puts an array of public keys into the order sorted multisig scripts need (ascending serializations, BIP67), keeping every key with its multiplicity, and touches nothing outside the array.", "quantifier": "every number of keys, every order, repeated keys, compressed and uncompressed keys", "why_tests_cant": "Termination, the bounds of the indices and the order of the result depend on the order of the input and on repeated keys.", "anchors": ["src/Script.cpp: swap, partition, quickSort", "src/BitcoinCurve.h: ECPoint::operator<="]}
{"id": "C97", "title": "Random numbers in a range", "statement": "generate_k_random yields a number from 1 to prime - 1, and if its words are uniform and independent so is the number: no reduction skews it. It always ends.", "quantifier": "every sequence of words of the random number generator, every prime of 9 limbs", "why_tests_cant": "A bias or an endless loop depends on the words drawn; a test sees a few sequences out of 2^288 for each attempt.", "anchors": ["src/utility/trezor/ecdsa.c: generate_k_random", "src/utility/trezor/rand.c: random32"]}
{"id": "C98", "title": "Digests as text and small numbers", "statement": "sha256_End, sha256_Data, sha512_End and sha512_Data write the digest as lowercase hexadecimal text with a terminating zero, touch nothing else of the buffer, and return that text. bn_read_uint32/64 and bn_write_uint32/64 convert between numbers and machine words (modulo their size), bn_format_uint64 formats an amount of 64 bits.", "quantifier": "every data in any pieces, every buffer, every number", "why_tests_cant": "The values run over all of 2^64 and all numbers of 256 bits, and the value returned is seldom looked at.", "anchors": ["src/utility/trezor/sha2.c: sha256_End, sha256_Data, sha512_End, sha512_Data", "src/utility/trezor/sha3.c: sha3_256, sha3_512", "src/utility/trezor/bignum.h: bn_write_uint32, bn_write_uint64, bn_format_uint64"]}
{"id": "C99", "title": "Keys of a PSBT map are unique", "statement": "PSBT::parse refuses a document with a key twice in a map (BIP 174). What is written after PSBT::sign has no key twice in a map, and signing a second time with the same master key changes nothing.", "quantifier": "every document the library can read, every master key, every number of inputs, entries and signatures", "why_tests_cant": "Whether two keys of a map agree depends on all pairs of entries and signatures of all documents; tests sign once and look at one signature.", "anchors": ["src/PSBT.cpp: PSBT::from_stream, PSBT::add, PSBT::sign, PSBT::to_stream"]}
{"id": "C100", "title": "ubtc_errno tells why parsing failed", "statement": "If parsing a transaction or a PSBT, at once or in pieces, leaves the object in the state FAILED, ubtc_errno has been set to the code of the part that is wrong; different parts have different codes. As long as parsing does not fail, ubtc_errno keeps its value.", "quantifier": "every sequence of pieces of bytes, every earlier value of ubtc_errno, objects that are fresh, done or in the middle of parsing", "why_tests_cant": "The value depends on the order in which all parts of all malformed inputs are looked at; tests try a few malformed inputs and seldom look at the variable.", "anchors": ["src/Transaction.cpp: TxIn::from_stream, TxOut::from_stream, Tx::from_stream", "src/PSBT.cpp: PSBT::from_stream, PSBT::add", "src/Bitcoin.cpp: ubtc_errno"]}
{"id": "C101", "title": "Signing changes only the input asked for", "statement": "Signing input i of a transaction changes nothing but the script and the witness of input i. The signature does not depend on scripts and witnesses that are there already; inputs can be signed in any order and again with the same result; signing native segwit inputs does not change the transaction id. Signing an Electrum transaction changes only inputs of the account, signing a PSBT changes neither its transaction nor its outputs.", "quantifier": "every transaction (any number of inputs and outputs, any scripts and witnesses), key, script, amount, hash type, random numbers; every series of calls and every permutation of it; every Electrum transaction and PSBT", "why_tests_cant": "The number of orders of calls grows factorially, and a leak of one input's script into the digest of another shows only for particular combinations of scripts, types and orders.", "anchors": ["src/Transaction.cpp: Tx::sigHash, Tx::sigHashSegwit, Tx::signInput, Tx::signSegwitInput", "src/Electrum.cpp: ElectrumTx::sign", "src/PSBT.cpp: PSBT::sign"]}
{"id": "C102", "title": "An input made from a transaction id spends that output, an output made from an address pays to it", "statement": "An input made from the 32 bytes or the hex text of a transaction id, an output number, a sequence number and possibly a script refers to exactly that output with that script; the text may be in capital or small letters, and the text `txid()` gives for a transaction makes an input that refers to it. An output made from an amount and a script or the address of that script pays exactly that amount to that script. Text which is no transaction id or no address gives no valid input or output.", "quantifier": "every transaction id, text, output number, sequence number, script, amount and address; every earlier content of memory", "why_tests_cant": "The texts a user may type are without number, and a test with a few correct ones does not show what happens with the others, nor what a constructor leaves uninitialised.", "anchors": ["src/Transaction.cpp:29-71", "src/Bitcoin.h:590-640"]}
{"id": "C103", "title": "Signatures from PSBTs spend the outputs", "statement": "If m owners of keys of an m-of-n script each sign the same PSBT with the library, then the signatures they return, put in the order of the keys in the script, satisfy the script of the output that is spent: native segwit, nested segwit and old script hash outputs and bare scripts. The same holds for one owner and an output to a key. An owner may also sign what another one has signed and returned.", "quantifier": "every PSBT inside the limits of the library, every input, every m and n up to 16, every choice of m of the owners, all master keys and derivation paths, all other fields of the PSBT", "why_tests_cant": "Documents, keys and choices of owners are without number, and a signature for the wrong digest is noticed only when the network refuses the transaction.", "anchors": ["src/PSBT.cpp:602-680", "src/PSBT.cpp:464-527", "src/Script.cpp:34-52"]}
{"id": "C104", "title": "What is sent to the address of a key can be spent with the key", "statement": "Take the text of an address of a private key (legacy, native segwit, nested segwit, or the address of a key of a hierarchical wallet by its type). Let a sender make an output from this text with TxOut(amount, address) and put it at any position in any transaction. Let the owner make an input with TxIn(txid, index) from the txid() text of the sender's transaction and add it to any transaction. Then signing that input with the key (signInput for legacy, signSegwitInput for the segwit types) gives an input that refers to the sender's output and satisfies the output's script under the consensus rules.", "quantifier": "all private keys, networks, amounts, sender transactions, positions of the output, spending transactions, positions of the input, sequence numbers, and random draws", "why_tests_cant": "The claim is about the composition of address encoding, address decoding, transaction ids, signature hashes, signing and script execution, for all keys and all transactions; a test can follow single payments only, and the cases that fail (addresses shorter than 33 characters, one in many) are rare.", "anchors": ["src/Bitcoin.cpp:372-433", "src/Script.cpp:140-200", "src/Transaction.cpp:571-600", "src/Transaction.cpp:698-760", "src/HDWallet.cpp:301-330"]}
{"id": "C105", "title": "A watch-only wallet shows the addresses of the private wallet", "statement": "Export the public key of an extended private key as text with xpub(), parse the text into a new HDPublicKey, and derive both keys along the same path without hardened steps. Then both arrive at the same public key, and address() of both gives the same text.", "quantifier": "all extended private keys with any network and type, all paths of non-hardened indexes of any length, all random draws", "why_tests_cant": "Paths have any length and every key is different; the claim composes serialization, Base58Check, parsing of version bytes, public and private derivation and address encoding. Tests compare single paths, usually for one type on one network, where the loss of type and network does not show.", "anchors": ["src/HDWallet.cpp:332-381", "src/HDWallet.cpp:470-476", "src/HDWallet.cpp:569-670", "src/HDWallet.cpp:729-815"]}
{"id": "C106", "title": "A wallet restored from a phrase shows the addresses other wallets show", "statement": "Make a wallet from a phrase and a password with fromMnemonic, or from a seed with fromSeed, for a network. Derive it along the text of a path m / purpose' / coin' / ... with purpose 44, 49 or 84 and the coin type of the network (0 for the main network, 1 for test networks), with ' or h as marks, with or without m/ in front and a slash at the end. Then address() gives the address that BIP 39, BIP 32 and BIP 44, 49 or 84 define on the chain of the network.", "quantifier": "all phrases, passwords, seeds, paths of up to 255 steps in every spelling, networks, and random draws", "why_tests_cant": "Test vectors cover a few phrases and paths. The claim is about every phrase and every path, through PBKDF2, HMAC, curve arithmetic, the path parser, the choice of script type and network along the path, and the encoding of addresses.", "anchors": ["src/HDWallet.cpp:242-289", "src/HDWallet.cpp:319-330", "src/HDWallet.cpp:382-523", "src/Bitcoin.cpp:372-433"]}
{"id": "C107", "title": "A signing device answers a PSBT with its signatures", "statement": "Make a wallet from a phrase and a password or from a seed. Give PSBT::parseBase64 the Base64 text of a PSBT, call sign with the wallet, and send back what toBase64 gives. The answer is the standard Base64 text of a PSBT for the same transaction with the signatures that were there and, behind them in each input, one signature for each entry of the input that belongs to the wallet: the fingerprint is that of the master key and the key is the one at the path in the tree of the seed. If the input spends an output locked to the hash of such a key (legacy, segwit, or segwit inside script hash), the signature in the answer spends it. sign returns the number of the new signatures. Giving an answer to a device again changes nothing.", "quantifier": "all phrases, passwords and seeds that have a master key, all networks, all PSBTs within the limits of the library, whatever follows in the encoded bytes, all derivation paths, all random draws", "why_tests_cant": "Seeds, documents and paths are without number; parser, derivation, digests, signer, serializer and text encoding have to agree for all of them, and a mistake shows only when the answer is refused or the transaction does not spend.", "anchors": ["src/PSBT.cpp:602-691", "src/HDWallet.cpp:242-293", "src/Conversion.cpp:787-807"]}
{"id": "C108", "title": "What is sent to the address of a multisignature script can be spent by enough of the owners", "statement": "The script multi(m, keys) of any n keys (m <= n <= 16) has the address that wsh / sh(wsh) / sh of it prints; a sender who makes an output from that text pays to a script such that any m owners of the keys, each signing their own copy of the spending transaction with signSegwitInput or signInput and the script, give signatures which, pushed in the order of the keys behind an empty element and followed by the script, spend the output under Bitcoin's rules; nothing else of the transaction changes.", "quantifier": "all numbers of keys and thresholds, all keys (compressed or not), all subsets of m owners, all networks, all spending transactions within the wire format, all amounts, all random numbers used to blind", "why_tests_cant": "A test uses one script, one set of owners and one transaction; the claim spans script building, address text, digests, signatures and the interpreter for all of them.", "anchors": ["src/Script.cpp:34-50", "src/Script.cpp:112-124", "src/Script.cpp:455-478", "src/Script.cpp:651-694", "src/Transaction.cpp:698-754"]}
{"id": "C109", "title": "A payment from several outputs is valid and arrives as it was made", "statement": "A program that makes a transaction with one input TxIn(source.txid(), n, sequence) for each output to be spent, adds outputs, and signs each input with the key and the function for its kind (signInput for legacy, signSegwitInput for nested and native segwit outputs) gets a transaction with exactly these inputs and outputs in which every input spends its output under Bitcoin's rules; toString() of it, parsed by another device, gives the same transaction with the same txid and wtxid. If all outputs spent are native segwit, txid() is the same before and after signing, so that further transactions can spend its outputs before it is signed.", "quantifier": "all numbers and mixtures of inputs (legacy, nested, segwit), all keys (compressed or not), all source transactions, all outputs, versions, locktimes and sequence numbers, all random numbers used to blind, all states of the receiving object", "why_tests_cant": "A test signs one transaction with a few inputs; that signing a later input never invalidates an earlier one, for every mixture of kinds, and that the text preserves all of it, needs an invariant over the whole loop.", "anchors": ["src/Transaction.cpp:45-58", "src/Transaction.cpp:589-626", "src/Transaction.cpp:698-754", "src/Bitcoin.h:722-740"]}
{"id": "C110", "title": "What is sent to an address of a watch-only wallet can be spent with the private wallet", "statement": "Export the public key of an extended private key as text with xpub(), parse the text into a new HDPublicKey, derive both keys along the same path without hardened steps, and make an output TxOut(amount, address) from the address the public one shows. Whatever transaction contains that output, the derived private key can spend it: signSegwitInput (with type nested segwit for a nested segwit account, native segwit otherwise) gives a transaction whose input is valid under Bitcoin's rules, alone or as one of several inputs of a payment. No money sent to an address of the watch-only wallet is lost, although address() of the private wallet may show a different text.", "quantifier": "all extended private keys with any network and type, all paths of non-hardened indexes of any length, all amounts, all transactions containing the output, all spending transactions within the wire format, all random draws", "why_tests_cant": "It composes export, parsing, derivation, address text, script building, signing and verification, each over unbounded sets; where the type or network is lost in the export (C105), only a proof can say that the money is still within reach.", "anchors": ["src/HDWallet.cpp:332-381", "src/HDWallet.cpp:470-476", "src/HDWallet.cpp:569-670", "src/HDWallet.cpp:729-815", "src/Transaction.cpp:698-754"]}
{"id": "C111", "title": "No result depends on the random numbers drawn against side channels", "statement": "The library draws random numbers only to blind the curve computations. Keys, derived keys, addresses, signatures (ECDSA and Schnorr), signed transactions, PSBTs and Electrum transactions, ownership answers, shared secrets and verification results are the same objects, byte for byte, whatever numbers the generator gives; so signing twice gives the same signature, a device with a weak generator gives away nothing in what it outputs, and two devices with the same seed answer alike.", "quantifier": "all secrets of 32 bytes (also invalid ones), all seeds, phrases, paths and texts, all transaction, PSBT and Electrum objects in any state (well-formed or not), all valid public keys (for shared secrets and verification), all pairs of sequences of draws in the range that the generator loop ensures", "why_tests_cant": "A test compares a few runs of one generator. The claim relates two executions for all inputs and all sequences of draws, which needs the exact result of the blinded computations.", "anchors": ["src/utility/trezor/ecdsa.c:194-204", "src/utility/trezor/ecdsa.c:206-208", "src/utility/trezor/ecdsa.c:774-783", "src/BitcoinCurve.cpp:271-291", "src/PSBT.cpp:602-681", "src/Electrum.cpp:147-164"]}
