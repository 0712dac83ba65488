{
 "C01": [
  "proved",
  "Every class, any pieces; cSHAKE for every object its constructor returns (C01_CSHAKE; C01_CSHAKE_short also says that it does return for strings below 2^53 - 256 bytes). TupleHash is outside the property: each addData call is one tuple element (C22)."
 ],
 "C02": [
  "partial",
  "Every class and every legal history (Tiger_any: all six Tiger classes; their toArray is C16). CSHAKE/TupleHash: strings shorter than 2^53 - 256 bytes, TupleHash output below 2^28 bytes; beyond that the code does fault (C22_signed_overflow, C29)."
 ],
 "C03": [
  "partial",
  "All classes except FNV-0, customised CSHAKE and TupleHash, for which it is false: C03_FNV32_0_fails, C03_CSHAKE_128_fails; *_after_reset says what those objects compute after reset."
 ],
 "C04": [
  "partial",
  "Every class and history with a non-empty digest. False for SHAKE/CSHAKE with requested length 0: front() of an empty string (C04_SHAKE_*_zero_fails)."
 ],
 "C05": [
  "proved",
  "All classes, all result widths; bool included (C05_bool_actual)."
 ],
 "C06": [
  "partial",
  "All classes; the SHAKE converse direction and digest equality hold for equal requested lengths only: objects with different requested lengths and different digests can compare equal (C06_SHAKE_*_lengths_fails)."
 ],
 "C07": [
  "proved",
  "All legal call histories; Spec/SHA1.lean is FIPS 180-4 (length field mod 2^64, the standard's for messages below 2^61 bytes)."
 ],
 "C08": [
  "proved",
  "All legal call histories; Spec/SHA2.lean is FIPS 180-4."
 ],
 "C09": [
  "proved",
  "All legal call histories, 128-bit length field included."
 ],
 "C10": [
  "proved",
  "All legal call histories; Spec/MD2.lean is RFC 1319 with the erratum."
 ],
 "C11": [
  "proved",
  "All legal call histories; Spec/MD4.lean is RFC 1320."
 ],
 "C12": [
  "proved",
  "All legal call histories; Spec/MD5.lean is RFC 1321."
 ],
 "C13": [
  "proved",
  "All legal call histories; Spec/RIPEMD.lean follows the RIPEMD-160 paper and its 256/320 extensions."
 ],
 "C14": [
  "proved",
  "All legal call histories; Spec/HAS160.lean."
 ],
 "C15": [
  "proved",
  "All legal call histories; Spec/SM3.lean."
 ],
 "C16": [
  "partial",
  "True of the 192-bit variants, S-boxes proved to be the generated ones. False of the 128/160-bit variants: C16_short_overrun, C16_short_false; C16_short_partial says what holds."
 ],
 "C17": [
  "proved",
  "All legal call histories below 2^125 bytes; the eight tables and the round constants are proved from the mini-boxes and the circulant matrix."
 ],
 "C18": [
  "partial",
  "False as stated: for lengths 56..63 mod 64 (112..127 mod 128) the counters of the last blocks are wrong (C18_*_fails, C18_negative). C18_*_partial: right for all other lengths and all histories; C18_*_actual: what is computed on every message."
 ],
 "C19": [
  "proved",
  "All legal call histories; Spec/BLAKE2.lean is RFC 7693."
 ],
 "C20": [
  "proved",
  "All legal call histories and output lengths; Spec/Keccak.lean is FIPS 202 on bit strings."
 ],
 "C21": [
  "partial",
  "Histories without reset, name and customization shorter than 2^53 - 256 bytes, byte count assumed exact there (derived in Props/FloatLog.lean from rounding and an accurate log2). Without name and customization: all histories. False after reset (C03) and for strings near 2^53 bytes (C29)."
 ],
 "C22": [
  "partial",
  "Any tuple, customization and output length below 2^28 bytes, strings shorter than 2^53 - 256 bytes. From 2^28 bytes of output on the code overflows a signed int (C22_signed_overflow); after reset the prefix is lost (C03)."
 ],
 "C23": [
  "proved",
  "All legal call histories, every key and every pair of round counts; Spec/SipHash.lean is the paper."
 ],
 "C24": [
  "proved",
  "All legal call histories against the bit-at-a-time register; all 4096 table entries; the register as remainder of polynomial division over GF(2)."
 ],
 "C25": [
  "partial",
  "FNV-1/1a: all legal histories. FNV-0: histories without reset; false with reset (C25_*_0_fails), C25_*_0_actual says what is computed after any history."
 ],
 "C26": [
  "proved",
  "SHAKE and cSHAKE for all histories (C26_CSHAKE for all strings; the _short theorems also say that the constructor returns for strings below 2^53 - 256 bytes)."
 ],
 "C27": [
  "proved",
  "All Merkle-Damgard style classes, BLAKE, BLAKE2 (blocks with counters), MD2 and SipHash; injectivity for messages of every length, no limit needed."
 ],
 "C28": [
  "proved",
  "All length-padded classes incl. BLAKE/BLAKE2 with their counters, for == and (whole-state digests) for toArray; MD2 with the alternative the statement names."
 ],
 "C29": [
  "proved",
  "Encoders right for all bit lengths below 2^56 - 2048, given an accurate log2 (C29_float_log_exact); overrun proved from 2^56 on and wrong count at 2^56 - 8; unambiguity of the encodings of cSHAKE inputs and tuples proved for all lengths the standard allows."
 ],
 "C30": [
  "proved",
  "For all memories, lengths, element sizes; the README example differs by the NUL byte (C30_README_fails)."
 ],
 "C31": [
  "proved",
  "Injectivity of the code's permutation and of KECCAK-f[1600]; == on finalised objects."
 ],
 "C32": [
  "proved",
  "Any window of at most 32 bits anywhere, messages of any length."
 ],
 "C33": [
  "proved",
  "All triples of equal-length messages."
 ],
 "C34": [
  "proved",
  "All six classes: bijection for any data, and any one-byte change is detected."
 ],
 "C35": [
  "proved",
  "C35_*: for every option without a length (except the four short Tiger ones, which always fault, C36_tiger_short_fails) the tool prints the digest of one addData of the whole content, for every content shorter than 2^64 bytes; C36_* give the same for any length and for SHAKE, cSHAKE and TupleHash. C35_unreadable_fails: the output does not tell unreadable files from shorter ones."
 ],
 "C36": [
  "partial",
  "Proved for every option whose class is right. False: -cshake-* use the customization argument as function name (C36_cshake_128_fails, _actual says what is printed), short Tiger options write past an array, -blake1-* inherit C18, lengths of 2^31 and more and negative ones end the program with an uncaught exception. Names, usage text, argument counts and unknown options are proved."
 ],
 "C37": [
  "proved",
  "Every class, all legal histories; cSHAKE and TupleHash for all strings, wherever constructor and calls return (which they do below 2^53 - 256 bytes and 2^28 bytes of TupleHash output: the _short theorems, C02)."
 ],
 "C38": [
  "proved",
  "All 128-bit values and all byte counts."
 ],
 "C39": [
  "partial",
  "Every memberwise-copied class, any program with any number of objects; SHA-3 and SHAKE with moves and with assignments between objects of different lengths. cSHAKE with pointers and heap modelled: no dangling pointer, double free, sharing or leak in any program, objects behave as their own history says; programs keeping to the rules run through for strings shorter than 2^53 - 256 bytes; TupleHash likewise, as values. False: copy assignment between a customised and a plain cSHAKE object (C39_CSHAKE_assign_fails), and copy assignment to a moved-from cSHAKE or TupleHash object (C39_CSHAKE_assign_moved_fails, C39_TupleHash_assign_moved_fails), dereference a null pointer."
 ],
 "C40": [
  "proved",
  "Every constant for which the standard gives a rule, with pi, sine and roots as real numbers. Constants without a published rule (SM3, BLAKE permutations, rotation counts, word orders, Tiger initial value) are compared with a separate transcription of the standard by the theorems about the digests."
 ],
 "C41": [
  "proved",
  "Any two positions closer than 2^32-1 bits, by the order of the register; sharp."
 ],
 "C42": [
  "partial",
  "Proved for every class with calls in any order. False parts: reset() of FNV-0 does nothing (C42_FNV0_reset_fails), and reading a Tiger 128/160-bit digest overruns its result (C16_short_overrun). cSHAKE: every object its constructor returns. TupleHash: strings below 2^53 - 256 bytes and lengths below 2^28, beyond which the encoders themselves fail (C29, C22); their reset() drops the customisation (C03)."
 ],
 "C43": [
  "partial",
  "Every class but the Keccak based ones: all objects in all states. SHA-3, SHAKE, cSHAKE and TupleHash: == is an equivalence in all states, equal finalised objects with one requested length have one hash (cSHAKE and TupleHash: strings below 2^53 - 256 bytes). False otherwise, with witnesses: C43_SHA3_256_fails, C43_SHAKE_128_fails, C43_CSHAKE_moved_fails."
 ],
 "C44": [
  "partial",
  "Padding, domain separation and collisions for SHA-3 and SHAKE without restriction; cSHAKE and TupleHash for names, customizations and elements shorter than 2^53 - 256 bytes and histories without reset; TupleHash lengths below 2^28 bytes that need the same number of output blocks."
 ],
 "C45": [
  "proved",
  "All Merkle-Damg\u00e5rd classes without restriction, Whirlpool for lengthened messages below 2^125 bytes (its counter has 128 bits, the length field of the standard 256). For SHA-224, SHA-384 and SHA-512/t about == only, since their digests are a part of the state."
 ],
 "C46": [
  "proved",
  "No restriction."
 ],
 "C47": [
  "proved",
  "All classes. For cSHAKE and TupleHash every object a constructor returned; with pointers and with bytes the calls do the same, and fault alike where TupleHash cannot encode a length."
 ],
 "C48": [
  "partial",
  "Every class for all histories. cSHAKE and TupleHash: wherever the debug build does not fault; it does fault for strings of 2^53 - 256 bytes or more (C42), where the release build overruns a buffer."
 ],
 "C49": [
  "proved",
  "About the function described in Spec/HASV.lean, which is what the code computes; the published HAS-V is not available here and the class does not meet the vectors of its own test (C49_vectors_fails). The class with its std::vector (C49_vector_*) computes the same as long as there is memory; without, see C68. The main of the test file is not modelled."
 ],
 "C50": [
  "partial",
  "proved: no fault, no leak, other objects unaffected, a call that returns has worked, reads throw or give the usual result, reset() repairs; conversions of the classes with toArray never fail. False of the code: that finalize() can be repeated after it threw (C50_SHA3_256_retry_fails), that a failed copy assignment leaves the target alone (C50_SHAKE_128_assign_fails) and that the noexcept conversions of SHA-3, SHAKE, cSHAKE and TupleHash objects never end the program (C50_SHA3_convert_fails); the _actual theorems say what happens instead"
 ],
 "C51": [
  "proved",
  "All classes, all histories that return when made alone (TupleHash can fail to encode a length, C22)."
 ],
 "C52": [
  "partial",
  "Proved for every class but cSHAKE and TupleHash for all histories and all widths from 16 to 64 bits. For cSHAKE and TupleHash proved while the bit lengths of names, customisations and elements fit in size_t; false above (C52_TupleHash_32bit_fails, C52_CSHAKE_32bit_fails), where C52_TupleHash_actual says what is computed."
 ],
 "C53": [
  "partial",
  "Proved for the caller's memory for every class. Not for the constant tables: crc_32.h, md2.h, tiger.h and whirlpool.h index them with message bytes, and which elements are read determines the message (C53_CRC_32_tables_fails, C53_MD2_tables_fails, C53_Tiger_tables_fails, C53_Whirlpool_tables_fails). Accesses to the object's own members are not modelled."
 ],
 "C54": [
  "proved",
  "Bit errors in the message, the digest being transmitted without error. The limit is shown to be sharp (C54_three_bits_limit, and an example with two messages of 11455 bytes)."
 ],
 "C55": [
  "proved",
  "Runs of the block function are counted, not instructions or time; what one run does does not depend on the data either except for table addresses (C53)."
 ],
 "C56": [
  "proved",
  "Stated with operator== of the classes; the cSHAKE theorems are about histories without reset() (which drops the customization, see C21)."
 ],
 "C57": [
  "partial",
  "all classes; FNV-0's reset() does nothing, so C57_FNV32_0_fails and C57_FNV64_0_fails, and C57_FNV_0_partial without reset(); MD2 and HAS_V_320 have no second half (== of MD2 ignores the checksum, HAS_V_320 has no ==); cSHAKE and TupleHash within the limits of C29 and C22, first half only for TupleHash"
 ],
 "C58": [
  "proved",
  "all classes; cSHAKE and TupleHash with the limits of C29 and C22 where they say that both builds get through"
 ],
 "C59": [
  "partial",
  "portability and equal digests of equal structures fail (C59_portable_fails, C59_padding_fails); C59_portable_partial says which arrays of integers are portable"
 ],
 "C60": [
  "partial",
  "Every class; cSHAKE and TupleHash for all objects their constructors return. Memory is that of the vectors and buffers, not the allocator's own. False for the -tuple-hash-* options of the tool, which read the whole file (C60_tool_tuple_actual)."
 ],
 "C61": [
  "partial",
  "Holds for all classes without table lookups. CRC-32, MD2, Tiger and Whirlpool look constants up at indices taken from the data (_fails); the _partial theorems say that nothing else depends on it. The log has the operations of the block functions (for SipHash also of the key schedule and finalize, for Keccak also of squeezing); size counters, buffer handling and toArray, which depend on lengths only, are not in it."
 ],
 "C62": [
  "partial",
  "BLAKE2, BLAKE2s, Blake1_224 and specified BLAKE: proved; false for Blake1_256, Blake1_384, Blake1_512 (counter bug of C18): exact description of the pairs, proved part, and the length extension that follows"
 ],
 "C63": [
  "proved",
  "shifts made by the block functions, word loaders and rotations; the shifts of the length fields, toArray, operator T and the length encoders are not in the logs"
 ],
 "C64": [
  "partial",
  "C64_output, C64_not_usage, C64_line and C64_same_output hold for every run; C64_list_partial needs names without line feed; C64_list_fails and C64_forged_fails show what happens otherwise"
 ],
 "C65": [
  "proved",
  "Bit errors in the message, the digest being transmitted without error. Both limits are shown to be sharp (C65_four_bits_limit, C65_five_bits_limit, and examples with two messages of 376 and of 38 bytes)."
 ],
 "C66": [
  "proved",
  "Existence, not a bound on how many bytes are needed."
 ],
 "C67": [
  "proved",
  "The list of declarations without an initialiser (head of Model/Uninit.lean) was made by reading the code; it is not itself proved to be complete."
 ],
 "C68": [
  "partial",
  "reset() repairs and what addData() took is proved for all histories and failures (C68_reset, C68_addData_partial; there finalize() has memory), and no call throws while pieces are whole blocks (C68_whole_blocks). Repeating a finalize() or addData() that threw gives a wrong digest, an assertion can be made to fail, and the reserved memory is lost: proved as _fails and C68_reserve_lost."
 ],
 "C69": [
  "partial",
  "Holds on POSIX systems (C69_posix) and on all systems for files with every option but those of TupleHash (C69_file_partial); fails on Windows for the standard input and for files with the options of TupleHash (C69_stdin_fails, C69_stdin_end_fails, C69_tuple_fails). C69_text_exact says which inputs are not changed."
 ],
 "C70": [
  "partial",
  "The status says nothing (C70_status, C70_full_fails, C70_wrong_fails); a line that was cut off is recognised if the name has no line feed (C70_whole_partial)."
 ],
 "C71": [
  "partial",
  "Where the pointer reaches the whole array no call leaves it, row and column agree with counting, and the digests are those of FIPS 202. By the letter of C++ the pointer reaches one row and every finalize() runs past it (C71_row_fails)."
 ],
 "C72": [
  "proved",
  "2^k messages of one digest out of k collisions; a collision of both classes if k exceeds the bits of the other digest. Whirlpool for messages below 2^125 bytes; SHA-224, SHA-384, SHA-512/t with ==."
 ],
 "C73": [
  "partial",
  "Proved for all classes with a buffer: SHA-1, SHA-2, MD2/4/5, RIPEMD, HAS-160, SM3, Tiger, Whirlpool, BLAKE, BLAKE2, SHA-3, SHAKE, SipHash, cSHAKE, TupleHash. False for HAS_V_320 (C73_HAS_V_320_fails): the memory of its std::vector keeps the bytes. Local variables and memory given back are not in the model; FNV and CRC_32 have no buffer."
 ],
 "C74": [
  "partial",
  "Proved for addData, finalize and reset of all block hashes and for operator T. Missing because the code does otherwise: operator== (C74_SipHash_eq_fails, C74_eq_steps) and toString (C74_toString_fails, C74_toString)."
 ]
}