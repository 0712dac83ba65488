import json
P=[]
def p(title,statement,quantifier,why,anchors):
    P.append(dict(id="C%02d"%(len(P)+1),title=title,statement=statement,quantifier=quantifier,why_tests_cant=why,anchors=anchors))
ALLH=["src/*.h: addData, finalize, toArray"]
p("Chunking does not matter",
  "For every hash class of the library, feeding a byte string through any sequence of addData calls (any number of calls, any sizes, empty pieces included) and then calling finalize gives the same toArray as feeding it in one call.",
  "all byte strings, all ways of cutting them into pieces, every algorithm",
  "the number of cut patterns is unbounded and interacts with block size, the carry-over buffer and the length counter",
  ["src/*.h: addData(Span), Buffer, finalize"])
p("No memory fault in the update/finalize path",
  "Starting from a freshly constructed object, no legal sequence of addData/finalize/reset calls ever writes or reads outside the internal buffer, trips an internal assertion, or lets the debug bounds check throw.",
  "all legal call histories and data sizes, every algorithm",
  "an out-of-range write needs one particular fill level/size combination and may stay silent when it happens",
  ["src/*.h: Buffer::fill, Buffer::push_back, addData, addDataImpl, finalize"])
p("reset() makes an object as good as new",
  "After any legal history, reset() followed by any further calls is observably the same as a fresh object receiving those calls. (Found false for FNV-0, for CSHAKE objects built with a name or customization string, and for TupleHash.)",
  "all call histories before the reset and all call sequences after it",
  "requires every field to be restored from every reachable state; tests start from a few states",
  ["src/*.h: reset", "src/fnv.h: FNV::reset", "src/cshake.h: CShake::reset", "src/tuple_hash.h: TupleHash::reset"])
p("Hex rendering is faithful",
  "toString is the lower-case two-digits-per-byte hexadecimal rendering of toArray, has exactly twice its length, determines it uniquely, and toVector has the same bytes as toArray.",
  "all digests of all lengths",
  "256 byte values times all positions; injectivity is a statement about all pairs",
  ["src/*.h: toString, toVector"])
p("Integer conversion reads the digest big-endian",
  "Converting a finalised object to an unsigned integer of w bytes gives the big-endian number made of the first min(w, digest size) bytes of toArray, and std::hash is that conversion at size_t.",
  "all digests, all unsigned widths",
  "shift/accumulate code is width dependent; tests sample one width and one value",
  ["src/*.h: operator T, std::hash"])
p("Equality of finalised objects agrees with digests",
  "If two finalised objects of the same class compare == then their toArray is equal; for the classes whose digest is the whole state the converse holds too. Before finalize, == may hold for objects that have absorbed different data.",
  "all pairs of messages",
  "statement about all pairs of objects; tests compare a handful",
  ["src/*.h: operator=="])
p("SHA-1 equals FIPS 180-4 SHA-1",
  "For every message shorter than 2^61 bytes, the digest computed by SHA1 is the digest that FIPS 180-4 defines, although the code uses a different schedule recurrence, alternative boolean functions and rotated-argument unrolling.",
  "all messages below the standard's length limit, all chunkings",
  "a wrong rotation or carry shows only on inputs exercising it; vectors sample a few inputs",
  ["src/sha1.h: addDataImpl, finalize, toArray"])
p("SHA-224/256 equal FIPS 180-4",
  "For every message shorter than 2^61 bytes the digests of SHA2_224 and SHA2_256 are the ones FIPS 180-4 defines.",
  "all messages below the limit, all chunkings","as above",
  ["src/sha2_224.h", "src/sha2_256.h"])
p("SHA-384/512/512-224/512-256 equal FIPS 180-4",
  "For every message shorter than 2^125 bytes the digests of SHA2_384, SHA2_512, SHA2_512_224 and SHA2_512_256 are the ones FIPS 180-4 defines, including the 128-bit length field.",
  "all messages below the limit, all chunkings","the high half of the 128-bit length counter is never reached by a test",
  ["src/sha2_384.h", "src/sha2_512.h", "src/sha2_512_224.h", "src/sha2_512_256.h", "Uint128"])
p("MD2 equals RFC 1319","For every message MD2 computes the RFC 1319 digest (with the published erratum on the checksum).","all messages, all chunkings","vectors sample",["src/md2.h"])
p("MD4 equals RFC 1320","For every message MD4 computes the RFC 1320 digest (length taken mod 2^64 bits as the RFC says).","all messages, all chunkings","vectors sample; length wrap untestable",["src/md4.h"])
p("MD5 equals RFC 1321","For every message MD5 computes the RFC 1321 digest (length taken mod 2^64 bits as the RFC says).","all messages, all chunkings","vectors sample; length wrap untestable",["src/md5.h"])
p("RIPEMD family equals its specification","For every message RIPEMD_128/160/256/320 compute the digests of the RIPEMD specification; the interleaving of the two lines and the rotated registers have no effect.","all messages, all chunkings","160 hand-unrolled calls per block; a single swapped register may survive vectors of one block",["src/ripemd_128.h","src/ripemd_160.h","src/ripemd_256.h","src/ripemd_320.h"])
p("HAS-160 equals TTAS.KO-12.0011/R2","For every message HAS_160 computes the digest of the HAS-160 standard.","all messages, all chunkings","vectors sample",["src/has_160.h"])
p("SM3 equals the SM3 draft","For every message shorter than 2^61 bytes SM3 computes the digest of draft-sca-cfrg-sm3.","all messages, all chunkings","vectors sample",["src/sm3.h"])
p("Tiger equals its specification","For every message Tiger1_192 and Tiger2_192 compute the Tiger/Tiger2 digest; the 128- and 160-bit variants return its 16/20-byte prefix without touching memory outside the result. (Found false for the short variants: toArray writes 24 bytes into a 16- or 20-byte array.)","all messages, all chunkings, all six variants","an 8-byte overrun of a stack array is silent in most builds and the tests only use the 192-bit variants",["src/tiger.h: Tiger<V,D>::toArray, addDataImpl"])
p("Whirlpool equals ISO/IEC 10118-3","For every message shorter than 2^125 bytes Whirlpool computes the digest of the Whirlpool specification; its precomputed tables are the ones generated by the mini-boxes and the diffusion matrix.","all messages, all chunkings","2048 table words, vectors touch them only through avalanche",["src/whirlpool.h"])
p("BLAKE equals its specification","For every message Blake1_224/256/384/512 compute the BLAKE digest. (Found false: wrong whenever the message length mod the block size leaves no room for the padding, i.e. 56..63 mod 64 or 112..127 mod 128.)","all messages, all chunkings","the tests never use a length in the failing residue classes",["src/blake1_224.h","src/blake1_256.h","src/blake1_384.h","src/blake1_512.h: addDataImpl, finalize"])
p("BLAKE2b/BLAKE2s equal RFC 7693","For every message Blake2 and Blake2s compute the unkeyed full-length BLAKE2b-512 / BLAKE2s-256 digest of RFC 7693; in particular exactly the last block is flagged final however the data was chunked.","all messages, all chunkings","the lazy buffering has many corner cases at block multiples",["src/blake2.h","src/blake2s.h"])
p("SHA-3 and SHAKE equal FIPS 202","For every message (and every non-negative output length for SHAKE) the SHA3_224/256/384/512 and SHAKE_128/256 outputs are the ones FIPS 202 defines from the Keccak-f[1600] step mappings.","all messages, all output lengths, all chunkings","vectors sample; multi-block squeezing and lengths around the rate are rarely tested",["src/sha3.h"])
p("cSHAKE equals SP 800-185","For every name, customization string, message and output length CSHAKE_128/256 compute cSHAKE of NIST SP 800-185; with empty name and customization they are SHAKE.","all names, strings, messages, lengths","vectors cover two customization strings",["src/cshake.h"])
p("TupleHash equals SP 800-185","For every sequence of byte strings passed to addData, customization string and output length TupleHash_128/256 compute TupleHash of SP 800-185.","all tuples, strings and lengths","vectors sample",["src/tuple_hash.h"])
p("SipHash equals its specification","For every 16-byte key and message SipHash computes the SipHash-c-d tag of the specification, rendered most significant byte first; only the message length mod 256 enters the tag block.","all keys, messages, chunkings, round counts","vectors sample",["src/siphash.h"])
p("CRC-32 equals polynomial division","For every message CRC_32 equals the reflected bit-at-a-time CRC with polynomial 0xEDB88320, initial value and final complement all-ones; the sixteen lookup tables are exactly the generated ones and the 16-byte stride does not matter.","all messages, all chunkings","4096 table entries and every alignment",["src/crc_32.h"])
p("FNV equals its definition","For every message the FNV-0/1/1a 32/64-bit classes compute the published recurrences with the published primes, and the offset basis is the FNV-0 hash of the published signature string.","all messages, all chunkings","vectors sample",["src/fnv.h"])
p("SHAKE outputs extend each other","For SHAKE (and customised cSHAKE) with the same input, the output of length m is a prefix of the output of length n whenever m <= n.","all messages and pairs of lengths","statement about all pairs of output lengths",["src/sha3.h: Keccak::finalize"])
p("Distinct inputs are never merged by padding","For every Merkle-Damgard style class, two different messages below the length limit are padded to different block sequences, every padded message is a whole number of blocks, and no more blocks than necessary are used.","all pairs of messages","statement about all pairs",["src/*.h: finalize"])
p("A digest collision is a compression-function collision","For every Merkle-Damgard style class, any two different messages (below the length limit) with the same final state exhibit two different inputs of the one-block compression step with the same output.","all pairs of messages","existence statement about all collisions, none of which is known",["src/*.h: finalize, addDataImpl"])
p("Length encodings are standard and unambiguous","The left/right length encodings used by cSHAKE and TupleHash are the shortest big-endian encodings of SP 800-185, and different tuples are encoded to different byte strings.","all lengths the code can handle, all pairs of tuples","the floating-point logarithm is rounded near powers of 256; boundary values are too large to test with real data",["src/cshake.h: leftEncode, rightEncode","src/tuple_hash.h"])
p("Overloads agree","addData(ptr,len), addData(array), addData(span of T) feed exactly the same bytes for the same memory; the array overload on a string literal feeds the terminating NUL too, so it differs from addData(literal, strlen).","all arrays and element sizes","depends on every element size and length",["src/*.h: addData overloads","README.md"])
p("Keccak-f is a permutation, so == on Keccak objects is exact","The 24-round permutation used by the SHA-3 family is injective on 1600-bit states; hence finalised Keccak objects of one class compare == exactly when the state that produced the first output block coincides.","all 2^1600 states","state space far beyond any test",["src/sha3.h: addDataImpl, operator=="])
p("CRC-32 detects all short bursts","Two messages of equal length that differ only inside a window of at most 32 consecutive bits have different CRC_32 values, wherever the window lies.","all messages, all positions, all error patterns","unbounded message length",["src/crc_32.h"])
p("CRC-32 is affine","For equal-length messages crc(a xor b xor c) = crc(a) xor crc(b) xor crc(c).","all triples of equal-length messages","statement about all triples",["src/crc_32.h"])
p("FNV updates are reversible","For every byte string the FNV update with fixed data is a bijection of the hash value: different starting values never merge.","all data and all pairs of hash values","statement about all pairs",["src/fnv.h"])
p("The command-line tool hashes exactly the file's bytes","Reading the input in 1 MiB pieces gives the same printed digest as hashing the whole file at once, for every file content including empty files and exact multiples of the piece size.","all file contents","file sizes unbounded",["src/program/main.cpp: readNPrint, readAllNPrint"])
p("Command-line dispatch","Each algorithm option computes the digest its name says with the arguments the usage text names. (Found false: -cshake-128/-cshake-256 use the 'Customization string' argument as the function name.)","all argument vectors","combinatorial",["src/program/main.cpp: getHash, main"])
p("Digest sizes are fixed","toArray of each fixed-size class always has exactly the documented number of bytes; extendable-output classes return exactly the requested number.","all messages and requested lengths","depends on every residue of the requested length",["src/*.h: toArray"])
p("128-bit length counter arithmetic","The software 128-bit counter adds byte counts and multiplies by 8 exactly, modulo 2^128.","all counter values and increments","carry out of the low word needs 2^64 bytes",["src/sha2_512.h: Uint128","src/whirlpool.h: Uint128"])
p("Copies are independent","A copy of an object taken at any moment continues exactly as the original would have, and using either one never changes the other.","all histories before and after the copy","aliasing bugs need particular interleavings",["src/*.h: implicit copy","src/cshake.h: copy constructor and assignment"])
p("Constants are derived, not mistyped","Round constants, initial values, permutations and S-boxes in the code equal what the standards' generating rules produce (fractional parts of roots, LFSRs, mini-boxes, digits).","every table entry","a single wrong entry in a rarely used position",["src/sha2_*.h","src/sha3.h","src/whirlpool.h","src/crc_32.h","src/fnv.h"])
for x in P: assert x['statement']
open('/verif/properties.jsonl','w').write(''.join(json.dumps(x)+'\n' for x in P))
print(len(P))
