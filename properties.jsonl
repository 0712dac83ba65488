{"id": "C01", "title": "Chunking does not matter", "statement": "For every hash class of the library, feeding a byte string through any sequence of addData calls (any number of calls, any sizes, empty pieces included) and then calling finalize gives the same toArray as feeding it in one call.", "quantifier": "all byte strings, all ways of cutting them into pieces, every algorithm; for cSHAKE every object its constructor returns (in TupleHash each call adds one element of the tuple, so pieces matter there by design, C22)", "why_tests_cant": "the number of cut patterns is unbounded and interacts with block size, the carry-over buffer and the length counter", "anchors": ["src/*.h: addData(Span), Buffer, finalize"]}
{"id": "C02", "title": "No memory fault in the update/finalize path", "statement": "Starting from a freshly constructed object, no legal sequence of addData/finalize/reset calls ever writes or reads outside the internal buffer, trips an internal assertion, or lets the debug bounds check throw.", "quantifier": "all legal call histories and data sizes, every algorithm", "why_tests_cant": "an out-of-range write needs one particular fill level/size combination and may stay silent when it happens", "anchors": ["src/*.h: Buffer::fill, Buffer::push_back, addData, addDataImpl, finalize"]}
{"id": "C03", "title": "reset() makes an object as good as new", "statement": "After any legal history, reset() followed by any further calls is observably the same as a fresh object receiving those calls. (Found false for FNV-0, for CSHAKE objects built with a name or customization string, and for TupleHash.)", "quantifier": "all call histories before the reset and all call sequences after it", "why_tests_cant": "requires every field to be restored from every reachable state; tests start from a few states", "anchors": ["src/*.h: reset", "src/fnv.h: FNV::reset", "src/cshake.h: CShake::reset", "src/tuple_hash.h: TupleHash::reset"]}
{"id": "C04", "title": "Hex rendering is faithful", "statement": "toString is the lower-case two-digits-per-byte hexadecimal rendering of toArray, has exactly twice its length, determines it uniquely, and toVector has the same bytes as toArray.", "quantifier": "all digests of all lengths", "why_tests_cant": "256 byte values times all positions; injectivity is a statement about all pairs", "anchors": ["src/*.h: toString, toVector"]}
{"id": "C05", "title": "Integer conversion reads the digest big-endian", "statement": "Converting a finalised object to an unsigned integer of w bytes gives the big-endian number made of the first min(w, digest size) bytes of toArray, and std::hash is that conversion at size_t.", "quantifier": "all digests, all unsigned widths", "why_tests_cant": "shift/accumulate code is width dependent; tests sample one width and one value", "anchors": ["src/*.h: operator T, std::hash"]}
{"id": "C06", "title": "Equality of finalised objects agrees with digests", "statement": "If two finalised objects of the same class compare == then their toArray is equal; for the classes whose digest is the whole state the converse holds too. Before finalize, == may hold for objects that have absorbed different data.", "quantifier": "all pairs of messages", "why_tests_cant": "statement about all pairs of objects; tests compare a handful", "anchors": ["src/*.h: operator=="]}
{"id": "C07", "title": "SHA-1 equals FIPS 180-4 SHA-1", "statement": "For every message shorter than 2^61 bytes, the digest computed by SHA1 is the digest that FIPS 180-4 defines, although the code uses a different schedule recurrence, alternative boolean functions and rotated-argument unrolling.", "quantifier": "all messages below the standard's length limit, all chunkings", "why_tests_cant": "a wrong rotation or carry shows only on inputs exercising it; vectors sample a few inputs", "anchors": ["src/sha1.h: addDataImpl, finalize, toArray"]}
{"id": "C08", "title": "SHA-224/256 equal FIPS 180-4", "statement": "For every message shorter than 2^61 bytes the digests of SHA2_224 and SHA2_256 are the ones FIPS 180-4 defines.", "quantifier": "all messages below the limit, all chunkings", "why_tests_cant": "as above", "anchors": ["src/sha2_224.h", "src/sha2_256.h"]}
{"id": "C09", "title": "SHA-384/512/512-224/512-256 equal FIPS 180-4", "statement": "For every message shorter than 2^125 bytes the digests of SHA2_384, SHA2_512, SHA2_512_224 and SHA2_512_256 are the ones FIPS 180-4 defines, including the 128-bit length field.", "quantifier": "all messages below the limit, all chunkings", "why_tests_cant": "the high half of the 128-bit length counter is never reached by a test", "anchors": ["src/sha2_384.h", "src/sha2_512.h", "src/sha2_512_224.h", "src/sha2_512_256.h", "Uint128"]}
{"id": "C10", "title": "MD2 equals RFC 1319", "statement": "For every message MD2 computes the RFC 1319 digest (with the published erratum on the checksum).", "quantifier": "all messages, all chunkings", "why_tests_cant": "vectors sample", "anchors": ["src/md2.h"]}
{"id": "C11", "title": "MD4 equals RFC 1320", "statement": "For every message MD4 computes the RFC 1320 digest (length taken mod 2^64 bits as the RFC says).", "quantifier": "all messages, all chunkings", "why_tests_cant": "vectors sample; length wrap untestable", "anchors": ["src/md4.h"]}
{"id": "C12", "title": "MD5 equals RFC 1321", "statement": "For every message MD5 computes the RFC 1321 digest (length taken mod 2^64 bits as the RFC says).", "quantifier": "all messages, all chunkings", "why_tests_cant": "vectors sample; length wrap untestable", "anchors": ["src/md5.h"]}
{"id": "C13", "title": "RIPEMD family equals its specification", "statement": "For every message RIPEMD_128/160/256/320 compute the digests of the RIPEMD specification; the interleaving of the two lines and the rotated registers have no effect.", "quantifier": "all messages, all chunkings", "why_tests_cant": "160 hand-unrolled calls per block; a single swapped register may survive vectors of one block", "anchors": ["src/ripemd_128.h", "src/ripemd_160.h", "src/ripemd_256.h", "src/ripemd_320.h"]}
{"id": "C14", "title": "HAS-160 equals TTAS.KO-12.0011/R2", "statement": "For every message HAS_160 computes the digest of the HAS-160 standard.", "quantifier": "all messages, all chunkings", "why_tests_cant": "vectors sample", "anchors": ["src/has_160.h"]}
{"id": "C15", "title": "SM3 equals the SM3 draft", "statement": "For every message shorter than 2^61 bytes SM3 computes the digest of draft-sca-cfrg-sm3.", "quantifier": "all messages, all chunkings", "why_tests_cant": "vectors sample", "anchors": ["src/sm3.h"]}
{"id": "C16", "title": "Tiger equals its specification", "statement": "For every message Tiger1_192 and Tiger2_192 compute the Tiger/Tiger2 digest; the 128- and 160-bit variants return its 16/20-byte prefix without touching memory outside the result. (Found false for the short variants: toArray writes 24 bytes into a 16- or 20-byte array.)", "quantifier": "all messages, all chunkings, all six variants", "why_tests_cant": "an 8-byte overrun of a stack array is silent in most builds and the tests only use the 192-bit variants", "anchors": ["src/tiger.h: Tiger<V,D>::toArray, addDataImpl"]}
{"id": "C17", "title": "Whirlpool equals ISO/IEC 10118-3", "statement": "For every message shorter than 2^125 bytes Whirlpool computes the digest of the Whirlpool specification; its precomputed tables are the ones generated by the mini-boxes and the diffusion matrix.", "quantifier": "all messages, all chunkings", "why_tests_cant": "2048 table words, vectors touch them only through avalanche", "anchors": ["src/whirlpool.h"]}
{"id": "C18", "title": "BLAKE equals its specification", "statement": "For every message Blake1_224/256/384/512 compute the BLAKE digest. (Found false: wrong whenever the message length mod the block size leaves no room for the padding, i.e. 56..63 mod 64 or 112..127 mod 128.)", "quantifier": "all messages, all chunkings", "why_tests_cant": "the tests never use a length in the failing residue classes", "anchors": ["src/blake1_224.h", "src/blake1_256.h", "src/blake1_384.h", "src/blake1_512.h: addDataImpl, finalize"]}
{"id": "C19", "title": "BLAKE2b/BLAKE2s equal RFC 7693", "statement": "For every message Blake2 and Blake2s compute the unkeyed full-length BLAKE2b-512 / BLAKE2s-256 digest of RFC 7693; in particular exactly the last block is flagged final however the data was chunked.", "quantifier": "all messages, all chunkings", "why_tests_cant": "the lazy buffering has many corner cases at block multiples", "anchors": ["src/blake2.h", "src/blake2s.h"]}
{"id": "C20", "title": "SHA-3 and SHAKE equal FIPS 202", "statement": "For every message (and every non-negative output length for SHAKE) the SHA3_224/256/384/512 and SHAKE_128/256 outputs are the ones FIPS 202 defines from the Keccak-f[1600] step mappings.", "quantifier": "all messages, all output lengths, all chunkings", "why_tests_cant": "vectors sample; multi-block squeezing and lengths around the rate are rarely tested", "anchors": ["src/sha3.h"]}
{"id": "C21", "title": "cSHAKE equals SP 800-185", "statement": "For every name, customization string, message and output length CSHAKE_128/256 compute cSHAKE of NIST SP 800-185; with empty name and customization they are SHAKE.", "quantifier": "all names, strings, messages, lengths", "why_tests_cant": "vectors cover two customization strings", "anchors": ["src/cshake.h"]}
{"id": "C22", "title": "TupleHash equals SP 800-185", "statement": "For every sequence of byte strings passed to addData, customization string and output length TupleHash_128/256 compute TupleHash of SP 800-185.", "quantifier": "all tuples, strings and lengths", "why_tests_cant": "vectors sample", "anchors": ["src/tuple_hash.h"]}
{"id": "C23", "title": "SipHash equals its specification", "statement": "For every 16-byte key and message SipHash computes the SipHash-c-d tag of the specification, rendered most significant byte first; only the message length mod 256 enters the tag block.", "quantifier": "all keys, messages, chunkings, round counts", "why_tests_cant": "vectors sample", "anchors": ["src/siphash.h"]}
{"id": "C24", "title": "CRC-32 equals polynomial division", "statement": "For every message CRC_32 equals the reflected bit-at-a-time CRC with polynomial 0xEDB88320, initial value and final complement all-ones; the sixteen lookup tables are exactly the generated ones and the 16-byte stride does not matter.", "quantifier": "all messages, all chunkings", "why_tests_cant": "4096 table entries and every alignment", "anchors": ["src/crc_32.h"]}
{"id": "C25", "title": "FNV equals its definition", "statement": "For every message the FNV-0/1/1a 32/64-bit classes compute the published recurrences with the published primes, and the offset basis is the FNV-0 hash of the published signature string.", "quantifier": "all messages, all chunkings", "why_tests_cant": "vectors sample", "anchors": ["src/fnv.h"]}
{"id": "C26", "title": "SHAKE outputs extend each other", "statement": "For SHAKE (and customised cSHAKE) with the same input, the output of length m is a prefix of the output of length n whenever m <= n.", "quantifier": "all messages, names, customizations and pairs of lengths, all histories of calls before the final one, resets included", "why_tests_cant": "statement about all pairs of output lengths", "anchors": ["src/sha3.h: Keccak::finalize"]}
{"id": "C27", "title": "Distinct inputs are never merged by padding", "statement": "For every Merkle-Damgard style class, two different messages below the length limit are padded to different block sequences, every padded message is a whole number of blocks, and no more blocks than necessary are used.", "quantifier": "all pairs of messages", "why_tests_cant": "statement about all pairs", "anchors": ["src/*.h: finalize"]}
{"id": "C28", "title": "A digest collision is a compression-function collision", "statement": "For every Merkle-Damgard style class, any two different messages (below the length limit) with the same final state exhibit two different inputs of the one-block compression step with the same output. For MD2, which has no length field, there is one alternative: a non-empty sequence of blocks that leads from the initial state back to it.", "quantifier": "all pairs of messages", "why_tests_cant": "existence statement about all collisions, none of which is known", "anchors": ["src/*.h: finalize, addDataImpl"]}
{"id": "C29", "title": "Length encodings are standard and unambiguous", "statement": "The left/right length encodings used by cSHAKE and TupleHash are the shortest big-endian encodings of SP 800-185, and different tuples are encoded to different byte strings.", "quantifier": "all lengths below 2^56 - 2048 bits, where the code's floating-point byte count is right (it is wrong for 2^56 - 8 bits and the encoders overrun from 2^56 bits on, shown by theorems), all pairs of names, customizations and messages, all pairs of tuples", "why_tests_cant": "the floating-point logarithm is rounded near powers of 256; boundary values are too large to test with real data", "anchors": ["src/cshake.h: leftEncode, rightEncode", "src/tuple_hash.h"]}
{"id": "C30", "title": "Overloads agree", "statement": "addData(ptr,len), addData(array), addData(span of T) feed exactly the same bytes for the same memory; the array overload on a string literal feeds the terminating NUL too, so it differs from addData(literal, strlen).", "quantifier": "all arrays and element sizes", "why_tests_cant": "depends on every element size and length", "anchors": ["src/*.h: addData overloads", "README.md"]}
{"id": "C31", "title": "Keccak-f is a permutation, so == on Keccak objects is exact", "statement": "The 24-round permutation used by the SHA-3 family is injective on 1600-bit states; hence finalised Keccak objects of one class compare == exactly when the state that produced the first output block coincides.", "quantifier": "all 2^1600 states", "why_tests_cant": "state space far beyond any test", "anchors": ["src/sha3.h: addDataImpl, operator=="]}
{"id": "C32", "title": "CRC-32 detects all short bursts", "statement": "Two messages of equal length that differ only inside a window of at most 32 consecutive bits have different CRC_32 values, wherever the window lies.", "quantifier": "all messages, all positions, all error patterns", "why_tests_cant": "unbounded message length", "anchors": ["src/crc_32.h"]}
{"id": "C33", "title": "CRC-32 is affine", "statement": "For equal-length messages crc(a xor b xor c) = crc(a) xor crc(b) xor crc(c).", "quantifier": "all triples of equal-length messages", "why_tests_cant": "statement about all triples", "anchors": ["src/crc_32.h"]}
{"id": "C34", "title": "FNV updates are reversible", "statement": "For every byte string the FNV update with fixed data is a bijection of the hash value: different starting values never merge, and changing one byte of a message always changes the digest. (Not more than that: FNV-0 takes no notice of zero bytes at the beginning.)", "quantifier": "all data and all pairs of hash values", "why_tests_cant": "statement about all pairs", "anchors": ["src/fnv.h"]}
{"id": "C35", "title": "The command-line tool hashes exactly the file's bytes", "statement": "Reading the input in 1 MiB pieces gives the same printed digest as hashing the whole file at once, for every file content including empty files and exact multiples of the piece size.", "quantifier": "all file contents", "why_tests_cant": "file sizes unbounded", "anchors": ["src/program/main.cpp: readNPrint, readAllNPrint"]}
{"id": "C36", "title": "Command-line dispatch", "statement": "Each algorithm option computes the digest its name says with the arguments the usage text names. (Found false: -cshake-128/-cshake-256 use the 'Customization string' argument as the function name.)", "quantifier": "all argument vectors", "why_tests_cant": "combinatorial", "anchors": ["src/program/main.cpp: getHash, main"]}
{"id": "C37", "title": "Digest sizes are fixed", "statement": "toArray of each fixed-size class always has exactly the documented number of bytes; extendable-output classes return exactly the requested number.", "quantifier": "all messages, names, customizations, tuples and requested lengths, wherever the calls return", "why_tests_cant": "depends on every residue of the requested length", "anchors": ["src/*.h: toArray"]}
{"id": "C38", "title": "128-bit length counter arithmetic", "statement": "The software 128-bit counter adds byte counts and multiplies by 8 exactly, modulo 2^128.", "quantifier": "all counter values and increments", "why_tests_cant": "carry out of the low word needs 2^64 bytes", "anchors": ["src/sha2_512.h: Uint128", "src/whirlpool.h: Uint128"]}
{"id": "C39", "title": "Copies are independent", "statement": "A copy of an object taken at any moment, by construction or assignment, continues exactly as the original would have, and using either one never changes the other. The same holds for the target of a move; an object that has been moved from can be given a new value and used again. std::swap of two cSHAKE objects (also of a customised and a plain one, or of an object and itself) or of two different TupleHash objects exchanges them.", "quantifier": "all programs with any number of objects, copied and moved at any moments", "why_tests_cant": "aliasing bugs need particular interleavings", "anchors": ["src/*.h: implicit copy", "src/cshake.h: copy constructor and assignment"]}
{"id": "C40", "title": "Constants are derived, not mistyped", "statement": "Round constants, initial values, permutations and S-boxes in the code equal what the standards' generating rules produce (fractional parts of roots, LFSRs, mini-boxes, digits).", "quantifier": "every table entry", "why_tests_cant": "a single wrong entry in a rarely used position", "anchors": ["src/sha2_*.h", "src/sha3.h", "src/whirlpool.h", "src/crc_32.h", "src/fnv.h"]}
{"id": "C41", "title": "CRC-32 detects all double-bit errors up to its period", "statement": "Two messages of equal length that differ in exactly two bits, less than 2^32 - 1 bits apart, have different CRC_32 values; at distance exactly 2^32 - 1 they always have the same one.", "quantifier": "all pairs of messages of any length differing in exactly two bits", "why_tests_cant": "the messages are up to half a gigabyte long and the pairs of positions cannot be enumerated; the proof needs the order of x modulo the generator polynomial", "anchors": ["src/crc_32.h: CRC_32::addDataImpl, crc32LUT"]}
{"id": "C42", "title": "Calls in the wrong order never corrupt memory, and reset() repairs the object", "statement": "Whatever sequence of addData, finalize and reset is called on an object, including addData after finalize and finalize several times, no call accesses memory outside its buffers, throws or fails an assertion, the digest can be read at every moment, and after reset() the object behaves like a new one. What the readouts then say differs by class: Keccak based classes keep the first digest until reset, FNV hashes all bytes regardless, a second CRC_32 finalize undoes the first, and the block hashes return an unrelated value.", "quantifier": "all sequences of calls in any order, with pieces of any length that fits in size_t, for every class", "why_tests_cant": "the documentation forbids these sequences but nothing in the code stops them; there are infinitely many, and an overrun would need a particular fill level of the buffer at a particular misuse", "anchors": ["src/sha2_256.h: SHA2_256::addData, SHA2_256::finalize, SHA2_256::reset", "src/sha3.h: Keccak::finalize", "src/blake2.h: Blake2::addData, Blake2::finalize", "src/siphash.h: SipHash::finalize", "src/crc_32.h: CRC_32::finalize", "src/fnv.h: FNVHash::finalize", "src/cshake.h: CShake", "src/tuple_hash.h: TupleHash"]}
{"id": "C43", "title": "Objects can be keys of unordered containers", "statement": "For every class == is reflexive, symmetric and transitive, and objects that compare equal have the same std::hash (and the same digest), whatever state they are in, finalised or not. (Found false for the Keccak based classes: an object that was fed the padding bytes compares equal to a finalised one but hashes to 0, and SHAKE objects with different requested lengths compare equal with different hashes.)", "quantifier": "all objects of a class in all states, for the Keccak based classes all pairs of legal histories ending in finalize", "why_tests_cant": "a hash table breaks as soon as one pair of equal objects hashes differently; tests compare a handful of objects, all finalised and with the same parameters", "anchors": ["src/sha1.h: operator==, std::hash<SHA1>", "src/sha3.h: operator==, std::hash<Keccak>", "src/fnv.h: operator==", "src/crc_32.h: operator==", "src/siphash.h: operator==", "src/tiger.h: operator=="]}
{"id": "C44", "title": "The sponge never merges inputs before its inner state collides", "statement": "For the Keccak based classes the padding is injective and uses no more blocks than necessary, SHA-3, SHAKE and cSHAKE never hand the same padded string to the permutation, cSHAKE's input determines name, customization and message, and objects finalised after different inputs compare equal only if beginnings of the two padded inputs lead to states that agree in the part no input block touches. TupleHash objects with different customizations, tuples (also the same bytes cut differently) or requested lengths compare equal only that way too.", "quantifier": "all pairs of messages, histories, names, customizations and output lengths", "why_tests_cant": "collisions cannot be found by testing, and a padding or domain byte that merges two inputs would show only on a pair of messages made for it", "anchors": ["src/sha3.h: Keccak::finalize, Keccak::addDataImpl, Keccak::operator==", "src/cshake.h: CShake::CShake", "src/sha3.h: SHA3_224, SHA3_256, SHA3_384, SHA3_512, SHAKE_128, SHAKE_256", "src/tuple_hash.h: TupleHash::nextData, TupleHash::finalize, TupleHash::operator=="]}
{"id": "C45", "title": "Length extension of the Merkle-Damg\u00e5rd classes", "statement": "For SHA-1, SHA-2, MD4, MD5, RIPEMD, HAS-160, SM3, Tiger and Whirlpool the padding depends only on the length of the message, and two messages of one length whose objects compare equal (for the classes that publish their whole state: whose digests are equal) still give equal objects and digests after each is followed by its padding and by any further bytes; so these classes must not be used as message authentication codes with the key in front. For MD2 the same holds of messages that agree in the checksum as well, each followed by its padding and its checksum. MD4, MD5 and SHA-1 have explicit pairs of different messages whose digests are equal whatever is appended to both.", "quantifier": "all pairs of messages of one length, all appended byte strings, all ways of adding the bytes", "why_tests_cant": "the claim is about every continuation of every pair of messages; tests compute a handful of digests", "anchors": ["src/sha1.h: SHA1::finalize, SHA1::addDataImpl, SHA1::toArray", "src/sha2_256.h: SHA2_256::toArray", "src/sha2_512.h", "src/md4.h: MD4::addDataImpl", "src/md5.h: MD5::addDataImpl", "src/md2.h: MD2::finalize, MD2::addDataImpl", "src/ripemd_160.h", "src/has_160.h", "src/sm3.h", "src/tiger.h", "src/whirlpool.h"]}
{"id": "C46", "title": "What a CRC-32 does and does not protect", "statement": "Whatever stands before and after them, four consecutive bytes can be chosen in exactly one way so that the digest of the message is a given one (so every digest occurs and the CRC protects against no attacker); the digest of a concatenation is a function of the digests of the parts and the length of the second; a message followed by its digest, least significant byte first, always has the digest 2144DF1C.", "quantifier": "all messages, all positions, all 2^32 digests", "why_tests_cant": "existence and uniqueness range over 2^32 choices for every surrounding message; the identities are over all pairs of messages", "anchors": ["src/crc_32.h: CRC_32::addDataImpl, CRC_32::finalize, CRC_32::toArray"]}
{"id": "C47", "title": "addData reads the caller's bytes and nothing else, and keeps no pointer to them", "statement": "A call addData(ptr, length) reads only the addresses ptr .. ptr+length-1, breaks no contract of the span class (bounds of first/subspan/iterators, null pointers), and has read all it needs when it returns: the caller may overwrite or free its bytes afterwards, and later results do not change. A null pointer with length 0 is allowed; a null pointer with another length ends the program. SipHash copies its key in the same way.", "quantifier": "all classes, all memories in which just the caller's bytes are readable, all addresses, all lengths below 2^63, all histories of calls in any order on an object its constructor returned, the memory being a different one for each call (TupleHash: wherever the lengths can be encoded, C22 and C29; elsewhere the call fails as it does with readable memory)", "why_tests_cant": "an out-of-bounds read or a retained pointer shows in a test only when the neighbouring memory happens to be unreadable or to change; every length, alignment and buffer state has its own slicing", "anchors": ["src/sha1.h: Buffer::push_back, SHA1::addData, SHA1::addDataImpl (and the same text in the other headers)", "src/blake2.h: Blake2::addData", "src/crc_32.h: CRC_32::addDataImpl", "src/fnv.h: FNVHash::addDataImpl", "src/md2.h: MD2::addDataImpl", "src/siphash.h: SipHash::SipHash", "src/tuple_hash.h: TupleHash::nextData", "src/gsl/span: span, span_iterator"]}
{"id": "C48", "title": "Release and debug builds compute the same", "statement": "Defining NDEBUG changes no result: whatever calls are made on an object, in whatever order, a release build of the library ends with the same object contents and the same digest as a debug build, and neither reads or writes outside an array. The only difference a caller can see is a SipHash key of a length other than 16 bytes: a debug build stops, a release build silently uses the first 16 bytes of a longer key.", "quantifier": "every class, every sequence of calls in any order, every byte string", "why_tests_cant": "A test suite is built once, usually without NDEBUG; that the unchecked code never relies on a check needs an argument about every reachable buffer state, and where it did the release build would have undefined behaviour that a test may not show.", "anchors": ["src/sha1.h: Buffer::fill, addDataImpl, finalize", "src/sha3.h: Keccak::finalize", "src/blake2.h: Blake2::addData", "src/siphash.h: SipHash::SipHash", "src/cshake.h: leftEncode"]}
{"id": "C49", "title": "The unfinished HAS_V_320 behaves as a hash function, but not as HAS-V", "statement": "For every sequence of calls to a HAS_V_320 object and every cut of the message into pieces the digest is one fixed function of the message (two lines of five rounds of twenty steps, written down separately) and has 40 bytes, toString() is its lower-case hexadecimal text and toVector() holds the same bytes; no sequence of calls writes outside the object; reset() restores the initial state; padding can be undone. The code disabled by the preprocessor computes, for every chaining value and block, the same as the code that replaced it. The digests required by the class's own test are not the ones either variant computes.", "quantifier": "all messages, all cuts, all sequences of calls in any order; for the two variants all chaining values and blocks", "why_tests_cant": "two texts of over two hundred statements in a different order agree on all inputs only if every statement does; the test of the class fails, so it says nothing about what the class does compute", "anchors": ["src/unfinished/has_v_320.cpp: HAS_V_320::addData, addDataImpl, finalize, reset, toArray", "src/unfinished/has_v_320.h: HAS_V_320", "src/unfinished/test_has_v_320.cpp"]}
{"id": "C50", "title": "Running out of memory never breaks an object", "statement": "If std::bad_alloc is thrown by finalize(), by a constructor, by an assignment or by a function that reads the digest and the caller catches it, then whichever allocations failed: no later call faults, nothing leaks, dangles or is shared, other objects are unaffected, a call that did return has done or given exactly what it does when there is memory, and after reset() the object is as new. A finalize() that threw can be called again and gives the digest of the message. Functions declared noexcept (conversion to integers, std::hash) never end the program.", "quantifier": "all messages, all sequences of calls in any order, all choices of which allocation of which call fails; for cSHAKE all programs of constructions, calls, copies, moves and destructions", "why_tests_cant": "allocation failures are not injected by any test and can happen at every allocation of every call; the number of allocations grows with the requested digest length", "anchors": ["src/sha3.h: Keccak::finalize, Keccak::stateToVector, Keccak::Keccak, m_final", "src/cshake.h: CShake::CShake, CShake::operator=, CShake::finalize", "src/sha3.h: Keccak::toVector, Keccak::toString, Keccak::operator T, std::hash", "src/tuple_hash.h: TupleHash::finalize, TupleHash::operator T", "src/sha1.h: SHA1::toString, SHA1::toVector, SHA1::operator T (same text in the other headers)"]}
{"id": "C51", "title": "Threads do not disturb one another", "statement": "A thread that fills its own buffers and makes calls on an object of its own gets the digest of its own calls, whatever other threads do and however the threads are interleaved, as long as no other thread writes to the bytes it hands over. Several threads may hash the same bytes at once. The number of memory accesses it makes does not depend on the schedule.", "quantifier": "all sequences of stores and calls in any order that return when made alone, all programs of the other threads, all interleavings at the level of single memory accesses, all ways in which a block may be read (any order, any number of times)", "why_tests_cant": "the number of interleavings is unbounded, and a test run sees one of them", "anchors": ["src/*.h: addData, addDataImpl, Loader::operator[]", "src/gsl/span", "src/md5.h: round (reads the caller's block four times)"]}
{"id": "C52", "title": "Digests do not depend on the width of size_t", "statement": "A program that makes the same calls with the same bytes gets the same digests on a machine with a 32-bit (or 16-bit) size_t as on a 64-bit one, and faults on neither: counters do not lose bits, block offsets and padding lengths do not wrap, and messages longer than 4 GiB, added in pieces, are hashed correctly.", "quantifier": "all widths m of size_t from the 16 bits C++ guarantees to 64, all classes, all sequences of calls in any order with spans that fit in the smaller size_t, messages of any total length", "why_tests_cant": "the tests run on one machine, and the interesting lengths (2^29 bytes and more) are not tested even there", "anchors": ["src/*.h: m_sizeCounter, addData, addDataImpl, finalize", "src/cshake.h: CShake::CShake (str.size() * 8)", "src/tuple_hash.h: TupleHash::nextData (inData.size() * 8)"]}
{"id": "C53", "title": "Which memory is accessed says nothing about the data", "statement": "Whoever sees only the addresses of the memory accesses, not the bytes, learns how long the data is and where it lies, but nothing about what it says: two threads that make the same calls on data of the same length at the same addresses make the same accesses in the same order and end the same way. The same holds for the key of SipHash and for the names and customisations of cSHAKE and TupleHash.", "quantifier": "all sequences of stores and calls in any order, all contents of memory, all keys, all layouts of memory, runs that fault included; all loads that read a block in an order that does not depend on data", "why_tests_cant": "it compares every two contents of the same buffers, and a test does not see addresses", "anchors": ["src/*.h: addData, addDataImpl, Loader::operator[]", "src/gsl/span", "src/crc_32.h: crc32LUT", "src/md2.h: piSubst", "src/tiger.h: tTable", "src/whirlpool.h: cTable"]}
{"id": "C54", "title": "CRC-32 detects every error of up to three bits in messages of up to 11454 bytes", "statement": "Two messages of the same length, at most 11454 bytes, that differ in one, two or three bits have different CRC_32 digests, wherever the bits are. In longer messages three flipped bits are detected whenever the last is less than 91639 bits after the first. The bound is the best one: three bits at distances 49961 and 41678 are never detected.", "quantifier": "all pairs of messages of the same length, all positions of the differing bits, whatever the other bits are", "why_tests_cant": "11454 bytes have 10^14 triples of bits and 2^91632 contents", "anchors": ["src/crc_32.h: CRC_32::addDataImpl, crc32LUT"]}
{"id": "C55", "title": "The work is linear in the length of the message and does not depend on its bytes or pieces", "statement": "For every class the number of runs of the block function since construction or the last reset() is determined by the number n of bytes added: n / B before finalize(), and (n + L) / B + 1 after it for the classes with an L-byte length field, so at most two more than the whole blocks of the message; SHA-3 and SHAKE take one run more than the whole blocks and one for every further block of output, MD2 two, SipHash one, BLAKE2 one for every started block, FNV one for every byte. Neither the bytes nor the way they are cut into addData() calls matter. cSHAKE and TupleHash take what SHA-3 takes for the encoded name and customization and the message (for TupleHash: the encoded elements) together, and after reset() for the message alone. CRC_32, which has no buffer, takes between n / 16 and n steps, depending on the pieces.", "quantifier": "all legal histories of calls, all messages, all ways of cutting them into pieces; all output lengths of SHAKE, all SipHash<C, D>, all Tiger<V, D>", "why_tests_cant": "a test can time some messages; that no content and no sequence of pieces costs more is a claim about all of them", "anchors": ["src/*.h: addDataImpl, addData, finalize"]}
{"id": "C56", "title": "What differs between two inputs is not hidden by what follows", "statement": "For SHA-3, SHAKE, SipHash, FNV-1, FNV-1a and CRC-32: if two objects have been given a whole number of blocks each, then after appending the same further bytes to both and finalising they compare equal exactly when they compared equal before. SHA-3, SHAKE and cSHAKE objects whose messages differ within one block only, or are equal up to the last, incomplete block, never compare equal. SipHash objects with different keys and the same message never compare equal, and neither do cSHAKE objects with different short names or customizations and the same message (as long as reset(), which drops the customization, is not called).", "quantifier": "all messages, all common continuations, all positions of the differing block, all legal histories, all keys, all names and customizations whose encoding fits in one block", "why_tests_cant": "a counterexample would be a collision in a state of up to 1600 bits; no test finds one, and the claim is about all pairs of messages", "anchors": ["src/sha3.h: Keccak::addDataImpl, finalize, operator==", "src/siphash.h: sipRound, addDataImpl, finalize, operator==", "src/cshake.h: CSHAKE, operator==", "src/fnv.h: addDataImpl", "src/crc_32.h: addDataImpl"]}
{"id": "C57", "title": "An object shows what it was fed, not how", "statement": "Two objects of one class that were used legally, that have been given the same bytes since construction or the last reset(), and that are both finalised or both not, are equal in every member, including the unused part of the buffer and the counters: splitting the input differently, empty addData() calls, and anything that was hashed before a reset() leave no trace, and every later call, legal or not, has the same effect on both. Conversely, two objects that are not finalised, whose messages are equally long and end with the same incomplete block, and that compare equal with ==, are equal in every member. MD2 has the first half only (== ignores the checksum). FNV-0 has the first half only without reset(), which does nothing there. A customised cSHAKE object depends on what it absorbed, its prefix included, and reset() drops the prefix. A TupleHash object depends on the elements of its tuple since construction or the last reset(), on whether it is finalised and on whether reset() was ever called.", "quantifier": "all pairs of legal histories with the same message, all splits, all earlier messages before a reset(), all later calls; for the second half all pairs of messages of equal length with a common incomplete block", "why_tests_cant": "ranges over all histories; operator== and the digests, which is what a test can look at, do not show the unused part of the buffer or the counters", "anchors": ["src/*.h: addData, reset, finalize, operator==", "src/*.h: Buffer::clear, Buffer::fill", "src/cshake.h: CSHAKE, reset", "src/fnv.h: reset"]}
{"id": "C58", "title": "Builds with std::span and with gsl::span compute the same", "statement": "The headers use std::span when the standard library has it and the bundled gsl::span otherwise. gsl::span checks every construction, subspan, iterator step and comparison and ends the program when a check fails; std::span and its pointers check nothing. For every class: whenever a sequence of calls gets through with gsl::span it gets through with std::span and leaves the same object. If each call is given readable bytes, both get through and the object is the one that depends on these bytes only. So no check of gsl::span is needed for correctness, and no unchecked access of the other build is out of range. (Without readable bytes they differ: a null pointer with a length ends one program and is dereferenced by the other.)", "quantifier": "all classes, all sequences of calls in any order, all memories, all addresses and lengths of the caller's bytes and of the object's own buffer", "why_tests_cant": "a test runs one of the two builds on some lengths; an access out of range in the unchecked build often goes unnoticed", "anchors": ["src/*.h: USE_STD_SPAN_CHOCOBO1_HASH, Span, addData, addDataImpl", "src/gsl/span: span, span_iterator"]}
{"id": "C59", "title": "What hashing an array of another type than bytes means", "statement": "addData(array of T) and addData(span of T) hash the elements as they lie in memory. For unsigned integers of k bytes: on one machine, arrays of one element type with different values or different lengths feed different bytes. The element type is not hashed: arrays of different types with the same bytes are the same message. Little-endian and big-endian machines feed the same bytes exactly if every element reads the same backwards, so digests of arrays of integers of more than one byte are not portable; digests of byte arrays are. Types with padding: equal structures can have different digests, because the padding is hashed.", "quantifier": "all element sizes, all arrays of values, all addresses and memories, both byte orders", "why_tests_cant": "tests run on one machine and cannot cover all arrays; padding usually happens to be zero in a test", "anchors": ["src/*.h: addData(const T (&array)[N]), addData(Span<T>)"]}
{"id": "C60", "title": "Memory use does not grow with the message", "statement": "However long the message and whatever calls are made in whatever order, an object keeps less than one block of it (BLAKE2: at most one). The only classes that allocate memory, SHA-3, SHAKE and those built on them, never have more than 3 (d + r) + 200 bytes allocated for their vectors, with d the requested length and r the rate in bytes, and a second use of an object after reset() allocates no more than the first. The command-line tool reads a file of any size in pieces of at most 1 MiB. (Found false for the -tuple-hash-* options: they read the whole file into memory.)", "quantifier": "all histories of calls in any order, all message lengths, all requested lengths, all ways a std::vector may grow within twice what it had", "why_tests_cant": "a test sees the memory of the runs it makes; growth with the length of the message or with the number of reuses shows only in runs longer than any test", "anchors": ["src/sha3.h: Keccak::Keccak, Keccak::reset, Keccak::finalize, Keccak::stateToVector", "src/sha2_256.h: Buffer, SHA2_256::addData", "src/blake2.h: Blake2::addData", "src/cshake.h: CSHAKE", "src/tuple_hash.h: TupleHash", "src/program/main.cpp: readNPrint, readAllNPrint"]}
{"id": "C61", "title": "What is executed does not depend on the data", "statement": "Two programs that make the same calls with data of the same lengths, and for SipHash with any two keys, make the block functions execute the same operations in the same order: the same additions, multiplications and bit operations, shifts by the same amounts, and reads and writes of the same elements of every array of the object and of the block. So the time a machine takes for these operations, if it depends on the operation and not on the operands, says nothing about the data or the key. (Found false for CRC-32, MD2, Tiger and Whirlpool: the elements read from their constant tables depend on the data. Everything else is the same for them too.)", "quantifier": "all histories of calls in any order, all data of the same lengths, all states and blocks, all keys; for SipHash all numbers of rounds, for Keccak all rates, padding bytes and output lengths, for cSHAKE and TupleHash all names and customizations of the same lengths", "why_tests_cant": "a measurement shows a dependence for the inputs measured and the machine it ran on; a branch or an index that depends on data in rare cases is not met", "anchors": ["src/*.h: addDataImpl, Loader, rotl, rotr, ror", "src/siphash.h: SipHash::SipHash, SipHash::reset, SipHash::finalize", "src/sha3.h: Keccak::addDataImpl, Keccak::finalize", "src/cshake.h: CShake", "src/tuple_hash.h: TupleHash", "src/fnv.h: FNVHash::addData", "src/unfinished/has_v_320.cpp: addDataImpl"]}
{"id": "C62", "title": "A BLAKE or BLAKE2 digest cannot be carried on", "statement": "For Blake2, Blake2s and the four BLAKE classes, the sequence of inputs of the compression function (block, counter, and for BLAKE2 the final flag) for one message is never the beginning of the sequence for another message, so the digest of a message is not a state from which the digest of a longer message can be computed (the attack C45 describes for the other constructions). (Found false for Blake1_256, Blake1_384 and Blake1_512: the digest of a message of 4096, 12288, 20480, ... bytes followed by a certain tail is, for Blake1_256 and Blake1_512, a function of the digest and the length of the message.)", "quantifier": "all pairs of messages (BLAKE: below 2^61 or 2^125 bytes), all histories of calls that produce them", "why_tests_cant": "the property is about pairs of messages; known-answer tests look at one message at a time, and the exceptions need messages of particular lengths, 4096 bytes at least, continued with particular bytes", "anchors": ["src/blake1_224.h: Blake1_224::finalize, addDataImpl", "src/blake1_256.h: Blake1_256::finalize, addDataImpl", "src/blake1_384.h: Blake1_384::finalize, addDataImpl", "src/blake1_512.h: Blake1_512::finalize, addDataImpl", "src/blake2.h: Blake2::finalize, addDataImpl", "src/blake2s.h: Blake2s::finalize, addDataImpl"]}
{"id": "C63", "title": "No shift is undefined", "statement": "While data is taken in and a digest is finalised, the block functions, the functions that load words and keys, and the rotations never shift a word by as many bits as it has or by more, which C++ leaves undefined. In particular the rotations by 0 that the permutation of SHA-3 asks for shift nothing.", "quantifier": "all histories of calls in any order, legal or not, all data; all states and blocks of every block function; for SipHash all keys and numbers of rounds, for Keccak all rates, padding bytes and output lengths, for cSHAKE and TupleHash all names and customizations", "why_tests_cant": "on most machines an undefined shift gives the expected value or the compiler makes it so; a test sees the value and not the undefinedness, and a shift by an amount that depends on a table or a counter is wrong only when that entry is reached", "anchors": ["src/*.h: rotl, rotr, ror, Loader, addDataImpl", "src/sha3.h: Keccak::addDataImpl", "src/siphash.h: SipHash::SipHash", "src/unfinished/has_v_320.cpp: addDataImpl"]}
{"id": "C64", "title": "What the command-line tool prints can be read back", "statement": "A run of the tool that ends prints the usage text or exactly one line with a digest and the last argument. A line is never the usage text and determines the digest and the file name, and so do several lines one after the other. (Found false for file names that contain a line feed: one file with a suitable name prints what looks like the lines of two files.)", "quantifier": "all options, argument vectors, file names and file contents", "why_tests_cant": "names and contents are arbitrary byte strings", "anchors": ["src/program/main.cpp: main, runHash, readNPrint, readAllNPrint"]}
{"id": "C65", "title": "CRC-32 detects every error of up to four bits in messages of up to 375 bytes, and of up to five bits in messages of up to 37 bytes", "statement": "Two messages of the same length, at most 375 bytes, that differ in one to four bits have different CRC_32 digests, wherever the bits are. So do two messages of at most 37 bytes that differ in one to five bits. In longer messages the same holds if all differing bits lie within 3006 (four) or 300 (five) consecutive bits. Both bounds are the best ones: there are messages of 376 bytes with four differing bits, and of 38 bytes with five, and equal digests.", "quantifier": "all pairs of messages of the same length, all positions of the differing bits, whatever the other bits are", "why_tests_cant": "375 bytes have more than 10^12 sets of four bits and 2^3000 contents", "anchors": ["src/crc_32.h: CRC_32::addDataImpl, crc32LUT"]}
{"id": "C66", "title": "What an FNV hash does not protect", "statement": "For each of the six FNV classes, whatever a message must begin and end with, bytes can be inserted between so that the digest is any given one. So every digest occurs, infinitely often, every message has collisions of any chosen shape, and no digest can serve as a mark that no message has.", "quantifier": "all beginnings, all endings, all 2^32 (2^64) digests, all six classes", "why_tests_cant": "existence for every one of 2^64 digests and every surrounding message; FNV steps are not linear, so it does not follow from a few cases", "anchors": ["src/fnv.h: addDataImpl, finalize, toArray of the class template in the file"]}
{"id": "C67", "title": "No variable is read before something is assigned to it", "statement": "The variables declared without an initialiser (the word tables of the block functions of HAS_160 and HAS_V_320, the members of HAS_V_320 before its constructor has run, the array its toArray() returns, and the character buffer of its toString()) are never read before they are assigned: for every chaining value, block and object the results are defined and do not depend on what the memory held before. The same holds of the generator of the CRC-32 tables that #if 0 disables, and it makes exactly the tables that are used instead.", "quantifier": "all chaining values, all blocks, all objects, all earlier contents of the memory", "why_tests_cant": "a read of indeterminate memory usually goes unnoticed; which elements are read is fixed by tables and must be followed through every statement", "anchors": ["src/has_160.h: HAS_160::addDataImpl", "src/unfinished/has_v_320.h: HAS_V_320", "src/unfinished/has_v_320.cpp: HAS_V_320::HAS_V_320, reset, toArray, toString, addDataImpl", "src/crc_32.h: CRC_32::addDataImpl (generateLUT)"]}
{"id": "C68", "title": "HAS_V_320 when memory runs out", "statement": "addData() and finalize() of HAS_V_320 may throw std::bad_alloc, which the caller may catch. Whatever was thrown, reset() makes the object as good as new. After an addData() that threw, the object has taken some of the first bytes of the piece, and the digest is that of the bytes taken. A call that threw can be repeated: the digest is then that of the message. No sequence of such calls fails an assertion. The memory reserved by the constructor is enough for every later call.", "quantifier": "all call sequences, all choices of the allocations that fail, all growth rules of the vector", "why_tests_cant": "tests run with enough memory; every point of every call at which an allocation may fail has to be followed by every continuation", "anchors": ["src/unfinished/has_v_320.h: m_buffer", "src/unfinished/has_v_320.cpp: HAS_V_320::HAS_V_320, reset, addData, finalize"]}
{"id": "C69", "title": "The command-line tool prints the same digests on Windows", "statement": "On every system the tool prints the digest of the bytes of the file, or of the standard input, whatever a system does to streams in text mode (on Windows: drops carriage returns before line feeds, and ends the input at the byte 26).", "quantifier": "all systems, all options and arguments, all contents of files and of the standard input", "why_tests_cant": "the tests do not run the tool; which inputs are changed by the text mode has to be settled for all contents", "anchors": ["src/program/main.cpp: main, runHash (readNPrint, readAllNPrint)"]}
{"id": "C70", "title": "What the status of the command-line tool says", "statement": "A run of the tool that ends with status 0 has printed the digest of the whole input. (Found false: every run that ends has status 0, also after the usage text, for a file that does not exist or cannot be read, and when the output could not be written.) A line that was cut off cannot be taken for a whole one when the file name contains no line feed, and the output device never changes whether a run ends.", "quantifier": "all argument vectors, file contents, and numbers of bytes that the output takes", "why_tests_cant": "the output may fail after any number of bytes, for any run; tests use outputs that take everything", "anchors": ["src/program/main.cpp: main, printUsage, runHash, readNPrint, readAllNPrint"]}
{"id": "C71", "title": "The lanes of a SHA-3 object stay in their array", "statement": "The state of SHA3_224/256/384/512, SHAKE and cSHAKE objects is an array of five rows of five 64-bit lanes. No call, in whatever order calls come, accesses anything outside the array a pointer belongs to; absorbing and squeezing count the lanes through all rows, everything else names row and column, and both mean the same lanes, so that the digest is the one of FIPS 202. operator== compares all lanes. (Found false by the letter of C++: a pointer to a lane may only be moved within its row, and every object that is finalised moves it on through all rows; with compilers that let it reach the whole array the rest holds.)", "quantifier": "all sequences of calls in any order, all pieces of data, rates, padding bytes and digest lengths", "why_tests_cant": "running past the end of a row is undefined and usually goes unnoticed; that the two ways to name a lane agree has to hold in every state", "anchors": ["src/sha3.h: Keccak::m_state, Keccak::addDataImpl, Keccak::stateToVector, Keccak::finalize, Keccak::reset, operator=="]}
{"id": "C72", "title": "Few collisions are many, and a second digest is no remedy", "statement": "For the classes that chain blocks and append a length (SHA-1, SHA-2, MD4, MD5, RIPEMD, HAS-160, SM3, Tiger-192, Whirlpool, HAS_V_320): whoever finds k collisions, one after the other, has 2^k different messages of one length with one digest, whatever is appended to all of them. If k is larger than the number of digest bits of any other class of the library (or any class with digests of fixed size), two of these messages also have the same digest in that class: publishing both digests, say MD5 and SHA-256, is not as strong as the lengths add up to. For SHA-224, SHA-384 and SHA-512/t, which publish a part of their state, this is about objects that compare equal.", "quantifier": "all numbers of collisions, all colliding pairs of strings of equal length, all appended strings, all ways to cut the messages into pieces, all second classes", "why_tests_cant": "it is about all sets of collisions; for most classes not one collision is known", "anchors": ["src/sha1.h, src/sha2_*.h, src/md4.h, src/md5.h, src/ripemd_*.h, src/has_160.h, src/sm3.h, src/tiger.h, src/whirlpool.h, src/unfinished/has_v_320.h: addData, finalize, toArray, operator=="]}
{"id": "C73", "title": "What an object keeps of the message as it is", "statement": "The only bytes of a message that an object holds as they were passed to addData() are those of the last, incomplete block (BLAKE2: the last block even if complete), in its buffer; every other byte of the buffer is zero, whatever messages the object had before and however they were cut into pieces. After finalize() and after reset(), in whatever order calls came before, all bytes of the buffer are zero, padding included. Nothing of the name and customization of a cSHAKE object is kept in its buffer. A SipHash object holds its key to the end. (Found false for HAS_V_320, whose std::vector keeps the bytes in its memory after finalize() and reset().)", "quantifier": "all legal sequences of calls, all messages and ways to cut them, all names and customizations, all template parameters; for finalize() and reset() all objects", "why_tests_cant": "what is left in memory after some earlier message depends on the whole history, and no call shows it", "anchors": ["src/*.h: Buffer::clear, Buffer::push_back, addData, finalize, reset", "src/cshake.h: CShake", "src/tuple_hash.h: TupleHash", "src/unfinished/has_v_320.cpp: HAS_V_320::addData, HAS_V_320::finalize, HAS_V_320::reset"]}
{"id": "C74", "title": "What happens around the block functions does not depend on the bytes", "statement": "Two programs that make the same calls to addData(), finalize() and reset(), in any order, legal or not, with data of the same lengths, have all conditions outside the block functions come out alike, read the same bytes of the caller's data into the buffer, read and write the same elements of the buffer and hand the same ranges of bytes to the block function, in the same order, up to the same failure if there is one. For SipHash this holds whatever the two keys are. The conversion of a digest to an unsigned integer does the same for all digests of one length. (Found false for toString(), which has a condition for each half of a byte of the digest and does the same for two digests only if they have letters in the same places, and for operator==, which returns at the first word that differs.)", "quantifier": "all pairs of sequences of calls with equal lengths of data, all messages, all keys, all template parameters, all digest lengths", "why_tests_cant": "a test sees digests, not what is executed, and there are unboundedly many pairs of messages and of histories", "anchors": ["src/sha2_256.h: SHA2_256::addData, SHA2_256::finalize, SHA2_256::reset, SHA2_256::toString, operator T, operator==, Buffer", "src/blake1_256.h: Blake1_256::finalize", "src/blake2.h: Blake2::addData, Blake2::finalize", "src/md2.h: MD2::finalize", "src/sha3.h: Keccak::finalize", "src/siphash.h: SipHash::finalize, operator=="]}
