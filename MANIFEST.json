{"claims": [
 {"property": "C01", "status": "proved", "theorems": ["Verif.Props.C01_CSHAKE_short", "Verif.Props.C01_CSHAKE", "Verif.Props.C01_FNV32_0", "Verif.Props.C01_FNV64_0", "Verif.Props.C01_SHA1", "Verif.Props.C01_SHA2_224", "Verif.Props.C01_SHA2_256", "Verif.Props.C01_SHA2_384", "Verif.Props.C01_SHA2_512", "Verif.Props.C01_SHA2_512_224", "Verif.Props.C01_SHA2_512_256", "Verif.Props.C01_MD4", "Verif.Props.C01_MD5", "Verif.Props.C01_RIPEMD_128", "Verif.Props.C01_RIPEMD_160", "Verif.Props.C01_RIPEMD_256", "Verif.Props.C01_RIPEMD_320", "Verif.Props.C01_HAS_160", "Verif.Props.C01_SM3", "Verif.Props.C01_Tiger1_192", "Verif.Props.C01_Tiger2_192", "Verif.Props.C01_Whirlpool", "Verif.Props.C01_SHA3_224", "Verif.Props.C01_SHA3_256", "Verif.Props.C01_SHA3_384", "Verif.Props.C01_SHA3_512", "Verif.Props.C01_SHAKE_128", "Verif.Props.C01_SHAKE_256", "Verif.Props.C01_MD2", "Verif.Props.C01_Blake1_224", "Verif.Props.C01_Blake1_256", "Verif.Props.C01_Blake1_384", "Verif.Props.C01_Blake1_512", "Verif.Props.C01_Blake2", "Verif.Props.C01_Blake2s", "Verif.Props.C01_SipHash", "Verif.Props.C01_FNV32_1", "Verif.Props.C01_FNV32_1a", "Verif.Props.C01_FNV64_1", "Verif.Props.C01_FNV64_1a", "Verif.Props.C01_CRC_32"], "note": "Every class, any pieces; cSHAKE for every object its constructor returns (C01_CSHAKE; C01_CSHAKE_short also says that it does return for strings below 2^53 - 256 bytes). TupleHash is outside the property: each addData call is one tuple element (C22)."},
 {"property": "C02", "status": "partial", "theorems": ["Verif.Props.C02_CSHAKE_partial", "Verif.Props.C02_TupleHash_partial", "Verif.Props.C02_FNV32_0", "Verif.Props.C02_FNV64_0", "Verif.Props.C02_SHA1", "Verif.Props.C02_SHA2_224", "Verif.Props.C02_SHA2_256", "Verif.Props.C02_SHA2_384", "Verif.Props.C02_SHA2_512", "Verif.Props.C02_SHA2_512_224", "Verif.Props.C02_SHA2_512_256", "Verif.Props.C02_MD4", "Verif.Props.C02_MD5", "Verif.Props.C02_RIPEMD_128", "Verif.Props.C02_RIPEMD_160", "Verif.Props.C02_RIPEMD_256", "Verif.Props.C02_RIPEMD_320", "Verif.Props.C02_HAS_160", "Verif.Props.C02_SM3", "Verif.Props.C02_Tiger1_192", "Verif.Props.C02_Tiger2_192", "Verif.Props.C02_Whirlpool", "Verif.Props.C02_SHA3_224", "Verif.Props.C02_SHA3_256", "Verif.Props.C02_SHA3_384", "Verif.Props.C02_SHA3_512", "Verif.Props.C02_SHAKE_128", "Verif.Props.C02_SHAKE_256", "Verif.Props.C02_MD2", "Verif.Props.C02_Blake1_224", "Verif.Props.C02_Blake1_256", "Verif.Props.C02_Blake1_384", "Verif.Props.C02_Blake1_512", "Verif.Props.C02_Blake2", "Verif.Props.C02_Blake2s", "Verif.Props.C02_SipHash", "Verif.Props.C02_FNV32_1", "Verif.Props.C02_FNV32_1a", "Verif.Props.C02_FNV64_1", "Verif.Props.C02_FNV64_1a", "Verif.Props.C02_CRC_32", "Verif.Props.C02_Tiger_any"], "note": "Every class and every legal history (Tiger_any: all six Tiger classes; their toArray is C16). CSHAKE/TupleHash: strings shorter than 2^53 - 256 bytes, TupleHash output below 2^28 bytes; beyond that the code does fault (C22_signed_overflow, C29)."},
 {"property": "C03", "status": "partial", "theorems": ["Verif.Props.C03_CSHAKE_128_after_reset", "Verif.Props.C03_CSHAKE_256_after_reset", "Verif.Props.C03_CSHAKE_128_fails", "Verif.Props.C03_CSHAKE_partial", "Verif.Props.C03_TupleHash_after_reset", "Verif.Props.C03_FNV32_0_fails", "Verif.Props.C03_FNV64_0_fails", "Verif.Props.C03_SHA1", "Verif.Props.C03_SHA2_224", "Verif.Props.C03_SHA2_256", "Verif.Props.C03_SHA2_384", "Verif.Props.C03_SHA2_512", "Verif.Props.C03_SHA2_512_224", "Verif.Props.C03_SHA2_512_256", "Verif.Props.C03_MD4", "Verif.Props.C03_MD5", "Verif.Props.C03_RIPEMD_128", "Verif.Props.C03_RIPEMD_160", "Verif.Props.C03_RIPEMD_256", "Verif.Props.C03_RIPEMD_320", "Verif.Props.C03_HAS_160", "Verif.Props.C03_SM3", "Verif.Props.C03_Tiger1_192", "Verif.Props.C03_Tiger2_192", "Verif.Props.C03_Whirlpool", "Verif.Props.C03_SHA3_224", "Verif.Props.C03_SHA3_256", "Verif.Props.C03_SHA3_384", "Verif.Props.C03_SHA3_512", "Verif.Props.C03_SHAKE_128", "Verif.Props.C03_SHAKE_256", "Verif.Props.C03_MD2", "Verif.Props.C03_Blake1_224", "Verif.Props.C03_Blake1_256", "Verif.Props.C03_Blake1_384", "Verif.Props.C03_Blake1_512", "Verif.Props.C03_Blake2", "Verif.Props.C03_Blake2s", "Verif.Props.C03_SipHash", "Verif.Props.C03_FNV32_1", "Verif.Props.C03_FNV32_1a", "Verif.Props.C03_FNV64_1", "Verif.Props.C03_FNV64_1a", "Verif.Props.C03_CRC_32", "Verif.Props.C03_Tiger_any"], "note": "All classes except FNV-0, customised CSHAKE and TupleHash, for which it is false: C03_FNV32_0_fails, C03_CSHAKE_128_fails; *_after_reset says what those objects compute after reset."},
 {"property": "C04", "status": "partial", "theorems": ["Verif.Props.C04_CSHAKE", "Verif.Props.C04_TupleHash", "Verif.Props.C04_length", "Verif.Props.C04_injective", "Verif.Props.C04_alphabet", "Verif.Props.C04_SHAKE_128_zero_fails", "Verif.Props.C04_SHAKE_256_zero_fails", "Verif.Props.C04_SHA1", "Verif.Props.C04_SHA2_224", "Verif.Props.C04_SHA2_256", "Verif.Props.C04_SHA2_384", "Verif.Props.C04_SHA2_512", "Verif.Props.C04_SHA2_512_224", "Verif.Props.C04_SHA2_512_256", "Verif.Props.C04_MD4", "Verif.Props.C04_MD5", "Verif.Props.C04_RIPEMD_128", "Verif.Props.C04_RIPEMD_160", "Verif.Props.C04_RIPEMD_256", "Verif.Props.C04_RIPEMD_320", "Verif.Props.C04_HAS_160", "Verif.Props.C04_SM3", "Verif.Props.C04_Tiger1_192", "Verif.Props.C04_Tiger2_192", "Verif.Props.C04_Whirlpool", "Verif.Props.C04_SHA3_224", "Verif.Props.C04_SHA3_256", "Verif.Props.C04_SHA3_384", "Verif.Props.C04_SHA3_512", "Verif.Props.C04_SHAKE_128", "Verif.Props.C04_SHAKE_256", "Verif.Props.C04_MD2", "Verif.Props.C04_Blake1_224", "Verif.Props.C04_Blake1_256", "Verif.Props.C04_Blake1_384", "Verif.Props.C04_Blake1_512", "Verif.Props.C04_Blake2", "Verif.Props.C04_Blake2s", "Verif.Props.C04_SipHash", "Verif.Props.C04_FNV32_1", "Verif.Props.C04_FNV32_1a", "Verif.Props.C04_FNV64_1", "Verif.Props.C04_FNV64_1a", "Verif.Props.C04_CRC_32", "Verif.Props.C04_FNV32_0", "Verif.Props.C04_FNV64_0"], "note": "Every class and history with a non-empty digest. False for SHAKE/CSHAKE with requested length 0: front() of an empty string (C04_SHAKE_*_zero_fails)."},
 {"property": "C05", "status": "proved", "theorems": ["Verif.Props.C05_CSHAKE", "Verif.Props.C05_TupleHash", "Verif.Props.C05_SHA1", "Verif.Props.C05_SHA2_224", "Verif.Props.C05_SHA2_256", "Verif.Props.C05_SHA2_384", "Verif.Props.C05_SHA2_512", "Verif.Props.C05_SHA2_512_224", "Verif.Props.C05_SHA2_512_256", "Verif.Props.C05_MD4", "Verif.Props.C05_MD5", "Verif.Props.C05_RIPEMD_128", "Verif.Props.C05_RIPEMD_160", "Verif.Props.C05_RIPEMD_256", "Verif.Props.C05_RIPEMD_320", "Verif.Props.C05_HAS_160", "Verif.Props.C05_SM3", "Verif.Props.C05_Tiger1_192", "Verif.Props.C05_Tiger2_192", "Verif.Props.C05_Whirlpool", "Verif.Props.C05_SHA3_224", "Verif.Props.C05_SHA3_256", "Verif.Props.C05_SHA3_384", "Verif.Props.C05_SHA3_512", "Verif.Props.C05_SHAKE_128", "Verif.Props.C05_SHAKE_256", "Verif.Props.C05_MD2", "Verif.Props.C05_Blake1_224", "Verif.Props.C05_Blake1_256", "Verif.Props.C05_Blake1_384", "Verif.Props.C05_Blake1_512", "Verif.Props.C05_Blake2", "Verif.Props.C05_Blake2s", "Verif.Props.C05_SipHash", "Verif.Props.C05_FNV32_1", "Verif.Props.C05_FNV32_1a", "Verif.Props.C05_FNV64_1", "Verif.Props.C05_FNV64_1a", "Verif.Props.C05_CRC_32", "Verif.Props.C05_FNV32_0", "Verif.Props.C05_FNV64_0", "Verif.Props.C05_narrow", "Verif.Props.C05_bool_actual"], "note": "All classes, all result widths; bool included (C05_bool_actual)."},
 {"property": "C06", "status": "partial", "theorems": ["Verif.Props.C06_CSHAKE_partial", "Verif.Props.C06_CSHAKE_lengths_fails", "Verif.Props.C06_TupleHash_partial", "Verif.Props.C06_SHA1", "Verif.Props.C06_SHA1_exact", "Verif.Props.C06_SHA1_blind", "Verif.Props.C06_SHA2_224", "Verif.Props.C06_SHA2_224_blind", "Verif.Props.C06_SHA2_256", "Verif.Props.C06_SHA2_256_exact", "Verif.Props.C06_SHA2_256_blind", "Verif.Props.C06_SHA2_384", "Verif.Props.C06_SHA2_384_blind", "Verif.Props.C06_SHA2_512", "Verif.Props.C06_SHA2_512_exact", "Verif.Props.C06_SHA2_512_blind", "Verif.Props.C06_SHA2_512_224", "Verif.Props.C06_SHA2_512_224_blind", "Verif.Props.C06_SHA2_512_256", "Verif.Props.C06_SHA2_512_256_blind", "Verif.Props.C06_MD4", "Verif.Props.C06_MD4_exact", "Verif.Props.C06_MD4_blind", "Verif.Props.C06_MD5", "Verif.Props.C06_MD5_exact", "Verif.Props.C06_MD5_blind", "Verif.Props.C06_RIPEMD_128", "Verif.Props.C06_RIPEMD_128_exact", "Verif.Props.C06_RIPEMD_128_blind", "Verif.Props.C06_RIPEMD_160", "Verif.Props.C06_RIPEMD_160_exact", "Verif.Props.C06_RIPEMD_160_blind", "Verif.Props.C06_RIPEMD_256", "Verif.Props.C06_RIPEMD_256_exact", "Verif.Props.C06_RIPEMD_256_blind", "Verif.Props.C06_RIPEMD_320", "Verif.Props.C06_RIPEMD_320_exact", "Verif.Props.C06_RIPEMD_320_blind", "Verif.Props.C06_HAS_160", "Verif.Props.C06_HAS_160_exact", "Verif.Props.C06_HAS_160_blind", "Verif.Props.C06_SM3", "Verif.Props.C06_SM3_exact", "Verif.Props.C06_SM3_blind", "Verif.Props.C06_Tiger1_192", "Verif.Props.C06_Tiger1_192_exact", "Verif.Props.C06_Tiger1_192_blind", "Verif.Props.C06_Tiger2_192", "Verif.Props.C06_Tiger2_192_exact", "Verif.Props.C06_Tiger2_192_blind", "Verif.Props.C06_Whirlpool", "Verif.Props.C06_Whirlpool_exact", "Verif.Props.C06_Whirlpool_blind", "Verif.Props.C06_MD2", "Verif.Props.C06_MD2_blind", "Verif.Props.C06_Blake1_224", "Verif.Props.C06_Blake1_224_blind", "Verif.Props.C06_Blake1_256", "Verif.Props.C06_Blake1_256_exact", "Verif.Props.C06_Blake1_256_blind", "Verif.Props.C06_Blake1_384", "Verif.Props.C06_Blake1_384_blind", "Verif.Props.C06_Blake1_512", "Verif.Props.C06_Blake1_512_exact", "Verif.Props.C06_Blake1_512_blind", "Verif.Props.C06_Blake2", "Verif.Props.C06_Blake2_exact", "Verif.Props.C06_Blake2_blind", "Verif.Props.C06_Blake2s", "Verif.Props.C06_Blake2s_exact", "Verif.Props.C06_Blake2s_blind", "Verif.Props.C06_SipHash", "Verif.Props.C06_SipHash_blind", "Verif.Props.C06_FNV32_1", "Verif.Props.C06_FNV32_1_exact", "Verif.Props.C06_FNV32_1a", "Verif.Props.C06_FNV32_1a_exact", "Verif.Props.C06_FNV64_1", "Verif.Props.C06_FNV64_1_exact", "Verif.Props.C06_FNV64_1a", "Verif.Props.C06_FNV64_1a_exact", "Verif.Props.C06_CRC_32", "Verif.Props.C06_CRC_32_exact", "Verif.Props.C06_SHA3_224", "Verif.Props.C06_SHA3_224_blind", "Verif.Props.C06_SHA3_256", "Verif.Props.C06_SHA3_256_blind", "Verif.Props.C06_SHA3_384", "Verif.Props.C06_SHA3_384_blind", "Verif.Props.C06_SHA3_512", "Verif.Props.C06_SHA3_512_blind", "Verif.Props.C06_SHAKE_128", "Verif.Props.C06_SHAKE_128_blind", "Verif.Props.C06_SHAKE_128_lengths_fails", "Verif.Props.C06_SHAKE_256", "Verif.Props.C06_SHAKE_256_blind", "Verif.Props.C06_SHAKE_256_lengths_fails", "Verif.Props.C06_readouts"], "note": "All classes; the SHAKE converse direction and digest equality hold for equal requested lengths only: objects with different requested lengths and different digests can compare equal (C06_SHAKE_*_lengths_fails)."},
 {"property": "C07", "status": "proved", "theorems": ["Verif.Props.C07_SHA1"], "note": "All legal call histories; Spec/SHA1.lean is FIPS 180-4 (length field mod 2^64, the standard's for messages below 2^61 bytes)."},
 {"property": "C08", "status": "proved", "theorems": ["Verif.Props.C08_SHA2_224", "Verif.Props.C08_SHA2_256"], "note": "All legal call histories; Spec/SHA2.lean is FIPS 180-4."},
 {"property": "C09", "status": "proved", "theorems": ["Verif.Props.C09_SHA2_384", "Verif.Props.C09_SHA2_512", "Verif.Props.C09_SHA2_512_224", "Verif.Props.C09_SHA2_512_256"], "note": "All legal call histories, 128-bit length field included."},
 {"property": "C10", "status": "proved", "theorems": ["Verif.Props.C10_MD2"], "note": "All legal call histories; Spec/MD2.lean is RFC 1319 with the erratum."},
 {"property": "C11", "status": "proved", "theorems": ["Verif.Props.C11_MD4"], "note": "All legal call histories; Spec/MD4.lean is RFC 1320."},
 {"property": "C12", "status": "proved", "theorems": ["Verif.Props.C12_MD5"], "note": "All legal call histories; Spec/MD5.lean is RFC 1321."},
 {"property": "C13", "status": "proved", "theorems": ["Verif.Props.C13_RIPEMD_128", "Verif.Props.C13_RIPEMD_160", "Verif.Props.C13_RIPEMD_256", "Verif.Props.C13_RIPEMD_320"], "note": "All legal call histories; Spec/RIPEMD.lean follows the RIPEMD-160 paper and its 256/320 extensions."},
 {"property": "C14", "status": "proved", "theorems": ["Verif.Props.C14_HAS_160"], "note": "All legal call histories; Spec/HAS160.lean."},
 {"property": "C15", "status": "proved", "theorems": ["Verif.Props.C15_SM3"], "note": "All legal call histories; Spec/SM3.lean."},
 {"property": "C16", "status": "partial", "theorems": ["Verif.Props.C16_Tiger1_192", "Verif.Props.C16_Tiger2_192", "Verif.Props.C16_short_overrun", "Verif.Props.C16_short_false", "Verif.Props.C16_short_partial"], "note": "True of the 192-bit variants, S-boxes proved to be the generated ones. False of the 128/160-bit variants: C16_short_overrun, C16_short_false; C16_short_partial says what holds."},
 {"property": "C17", "status": "proved", "theorems": ["Verif.Props.C17_Whirlpool"], "note": "All legal call histories below 2^125 bytes; the eight tables and the round constants are proved from the mini-boxes and the circulant matrix."},
 {"property": "C18", "status": "partial", "theorems": ["Verif.Props.C18_Blake1_224_partial", "Verif.Props.C18_Blake1_256_partial", "Verif.Props.C18_Blake1_384_partial", "Verif.Props.C18_Blake1_512_partial", "Verif.Props.C18_Blake1_224_actual", "Verif.Props.C18_Blake1_256_actual", "Verif.Props.C18_Blake1_384_actual", "Verif.Props.C18_Blake1_512_actual", "Verif.Props.C18_Blake1_224_fails", "Verif.Props.C18_Blake1_256_fails", "Verif.Props.C18_Blake1_384_fails", "Verif.Props.C18_Blake1_512_fails", "Verif.Props.C18_negative"], "note": "False as stated: for lengths 56..63 mod 64 (112..127 mod 128) the counters of the last blocks are wrong (C18_*_fails, C18_negative). C18_*_partial: right for all other lengths and all histories; C18_*_actual: what is computed on every message."},
 {"property": "C19", "status": "proved", "theorems": ["Verif.Props.C19_Blake2", "Verif.Props.C19_Blake2s"], "note": "All legal call histories; Spec/BLAKE2.lean is RFC 7693."},
 {"property": "C20", "status": "proved", "theorems": ["Verif.Props.C20_SHA3_224", "Verif.Props.C20_SHA3_256", "Verif.Props.C20_SHA3_384", "Verif.Props.C20_SHA3_512", "Verif.Props.C20_SHAKE_128", "Verif.Props.C20_SHAKE_256", "Verif.Props.C20_SHAKE_construct"], "note": "All legal call histories and output lengths; Spec/Keccak.lean is FIPS 202 on bit strings."},
 {"property": "C21", "status": "partial", "theorems": ["Verif.Props.C21_CSHAKE_128_partial", "Verif.Props.C21_CSHAKE_256_partial", "Verif.Props.C21_plain_128", "Verif.Props.C21_plain_256", "Verif.Props.C21_negative"], "note": "Histories without reset, name and customization shorter than 2^53 - 256 bytes, byte count assumed exact there (derived in Props/FloatLog.lean from rounding and an accurate log2). Without name and customization: all histories. False after reset (C03) and for strings near 2^53 bytes (C29)."},
 {"property": "C22", "status": "partial", "theorems": ["Verif.Props.C22_TupleHash_128_partial", "Verif.Props.C22_TupleHash_256_partial", "Verif.Props.C22_signed_overflow"], "note": "Any tuple, customization and output length below 2^28 bytes, strings shorter than 2^53 - 256 bytes. From 2^28 bytes of output on the code overflows a signed int (C22_signed_overflow); after reset the prefix is lost (C03)."},
 {"property": "C23", "status": "proved", "theorems": ["Verif.Props.C23_SipHash", "Verif.Props.C23_constructor", "Verif.Props.C23_pad"], "note": "All legal call histories, every key and every pair of round counts; Spec/SipHash.lean is the paper."},
 {"property": "C24", "status": "proved", "theorems": ["Verif.Props.C24_CRC_32", "Verif.Props.C24_polynomial", "Verif.Props.C24_polynomial_unique"], "note": "All legal call histories against the bit-at-a-time register; all 4096 table entries; the register as remainder of polynomial division over GF(2)."},
 {"property": "C25", "status": "partial", "theorems": ["Verif.Props.C25_FNV32_1", "Verif.Props.C25_FNV32_1a", "Verif.Props.C25_FNV64_1", "Verif.Props.C25_FNV64_1a", "Verif.Props.C25_FNV32_0_actual", "Verif.Props.C25_FNV64_0_actual", "Verif.Props.C25_FNV32_0_partial", "Verif.Props.C25_FNV64_0_partial", "Verif.Props.C25_FNV32_0_fails", "Verif.Props.C25_FNV64_0_fails"], "note": "FNV-1/1a: all legal histories. FNV-0: histories without reset; false with reset (C25_*_0_fails), C25_*_0_actual says what is computed after any history."},
 {"property": "C26", "status": "proved", "theorems": ["Verif.Props.C26_CSHAKE_128_short", "Verif.Props.C26_CSHAKE_256_short", "Verif.Props.C26_CSHAKE", "Verif.Props.C26_SHAKE_128", "Verif.Props.C26_SHAKE_256"], "note": "SHAKE and cSHAKE for all histories (C26_CSHAKE for all strings; the _short theorems also say that the constructor returns for strings below 2^53 - 256 bytes)."},
 {"property": "C27", "status": "proved", "theorems": ["Verif.Props.C27_SHA1", "Verif.Props.C27_SHA2_256", "Verif.Props.C27_SHA2_512", "Verif.Props.C27_MD4", "Verif.Props.C27_MD5", "Verif.Props.C27_RIPEMD", "Verif.Props.C27_HAS_160", "Verif.Props.C27_SM3", "Verif.Props.C27_Tiger1", "Verif.Props.C27_Tiger2", "Verif.Props.C27_Whirlpool", "Verif.Props.C27_Blake1_256", "Verif.Props.C27_Blake1_224", "Verif.Props.C27_Blake1_512", "Verif.Props.C27_Blake1_384", "Verif.Props.C27_Blake2", "Verif.Props.C27_Blake2s", "Verif.Props.C27_Blake2_blocks", "Verif.Props.C27_Blake2s_blocks", "Verif.Props.C27_MD2", "Verif.Props.C27_SipHash"], "note": "All Merkle-Damgard style classes, BLAKE, BLAKE2 (blocks with counters), MD2 and SipHash; injectivity for messages of every length, no limit needed."},
 {"property": "C28", "status": "proved", "theorems": ["Verif.Props.C28_HAS_V_320", "Verif.Props.C28_HAS_V_320_digest", "Verif.Props.C28_SHA1", "Verif.Props.C28_SHA1_digest", "Verif.Props.C28_SHA2_224", "Verif.Props.C28_SHA2_256", "Verif.Props.C28_SHA2_256_digest", "Verif.Props.C28_SHA2_384", "Verif.Props.C28_SHA2_512", "Verif.Props.C28_SHA2_512_digest", "Verif.Props.C28_SHA2_512_224", "Verif.Props.C28_SHA2_512_256", "Verif.Props.C28_MD4", "Verif.Props.C28_MD4_digest", "Verif.Props.C28_MD5", "Verif.Props.C28_MD5_digest", "Verif.Props.C28_RIPEMD_128", "Verif.Props.C28_RIPEMD_128_digest", "Verif.Props.C28_RIPEMD_160", "Verif.Props.C28_RIPEMD_160_digest", "Verif.Props.C28_RIPEMD_256", "Verif.Props.C28_RIPEMD_256_digest", "Verif.Props.C28_RIPEMD_320", "Verif.Props.C28_RIPEMD_320_digest", "Verif.Props.C28_HAS_160", "Verif.Props.C28_HAS_160_digest", "Verif.Props.C28_SM3", "Verif.Props.C28_SM3_digest", "Verif.Props.C28_Tiger1_192", "Verif.Props.C28_Tiger1_192_digest", "Verif.Props.C28_Tiger2_192", "Verif.Props.C28_Tiger2_192_digest", "Verif.Props.C28_Whirlpool", "Verif.Props.C28_Whirlpool_digest", "Verif.Props.C28_Blake1_224", "Verif.Props.C28_Blake1_256", "Verif.Props.C28_Blake1_384", "Verif.Props.C28_Blake1_512", "Verif.Props.C28_Blake2", "Verif.Props.C28_Blake2s", "Verif.Props.C28_MD2", "Verif.Props.C28_Tiger_any"], "note": "All length-padded classes incl. BLAKE/BLAKE2 with their counters, for == and (whole-state digests) for toArray; MD2 with the alternative the statement names."},
 {"property": "C29", "status": "proved", "theorems": ["Verif.Props.C29_shortest", "Verif.Props.C29_encodings", "Verif.Props.C29_overrun", "Verif.Props.C29_tuples_injective", "Verif.Props.C29_cshake_injective", "Verif.Props.Float.C29_float_log_exact", "Verif.Props.Float.C29_float_log_wrong"], "note": "Encoders right for all bit lengths below 2^56 - 2048, given an accurate log2 (C29_float_log_exact); overrun proved from 2^56 on and wrong count at 2^56 - 8; unambiguity of the encodings of cSHAKE inputs and tuples proved for all lengths the standard allows."},
 {"property": "C30", "status": "proved", "theorems": ["Verif.Props.C30_overloads", "Verif.Props.C30_bytes", "Verif.Props.C30_literal", "Verif.Props.C30_README_fails"], "note": "For all memories, lengths, element sizes; the README example differs by the NUL byte (C30_README_fails)."},
 {"property": "C31", "status": "proved", "theorems": ["Verif.Props.C31_permute_injective", "Verif.Props.C31_keccakF_injective", "Verif.Props.C31_equality"], "note": "Injectivity of the code's permutation and of KECCAK-f[1600]; == on finalised objects."},
 {"property": "C32", "status": "proved", "theorems": ["Verif.Props.C32_burst", "Verif.Props.C32_four_bytes"], "note": "Any window of at most 32 bits anywhere, messages of any length."},
 {"property": "C33", "status": "proved", "theorems": ["Verif.Props.C33_affine"], "note": "All triples of equal-length messages."},
 {"property": "C34", "status": "proved", "theorems": ["Verif.Props.C34_bijective_32", "Verif.Props.C34_bijective_64", "Verif.Props.C34_one_byte_32", "Verif.Props.C34_one_byte_64", "Verif.Props.C34_FNV32_0_zeros", "Verif.Props.C34_FNV64_0_zeros"], "note": "All six classes: bijection for any data, and any one-byte change is detected."},
 {"property": "C35", "status": "proved", "theorems": ["Verif.Props.C35_blake1_224", "Verif.Props.C35_blake1_256", "Verif.Props.C35_blake1_384", "Verif.Props.C35_blake1_512", "Verif.Props.C35_blake2", "Verif.Props.C35_blake2s", "Verif.Props.C35_crc_32", "Verif.Props.C35_fnv32_1a", "Verif.Props.C35_fnv64_1a", "Verif.Props.C35_has160", "Verif.Props.C35_md2", "Verif.Props.C35_md4", "Verif.Props.C35_md5", "Verif.Props.C35_ripemd_128", "Verif.Props.C35_ripemd_160", "Verif.Props.C35_ripemd_256", "Verif.Props.C35_ripemd_320", "Verif.Props.C35_siphash", "Verif.Props.C35_sha1", "Verif.Props.C35_sha2_224", "Verif.Props.C35_sha2_256", "Verif.Props.C35_sha2_384", "Verif.Props.C35_sha2_512", "Verif.Props.C35_sha2_512_224", "Verif.Props.C35_sha2_512_256", "Verif.Props.C35_sha3_224", "Verif.Props.C35_sha3_256", "Verif.Props.C35_sha3_384", "Verif.Props.C35_sha3_512", "Verif.Props.C35_sm3", "Verif.Props.C35_tiger1_192", "Verif.Props.C35_tiger2_192", "Verif.Props.C35_whirlpool", "Verif.Props.C35_unreadable_fails"], "note": "C35_*: for every option without a length (except the four short Tiger ones, which always fault, C36_tiger_short_fails) the tool prints the digest of one addData of the whole content, for every content shorter than 2^64 bytes; C36_* give the same for any length and for SHAKE, cSHAKE and TupleHash. C35_unreadable_fails: the output does not tell unreadable files from shorter ones."},
 {"property": "C36", "status": "partial", "theorems": ["Verif.Props.C36_blake2", "Verif.Props.C36_blake2s", "Verif.Props.C36_crc_32", "Verif.Props.C36_fnv32_1a", "Verif.Props.C36_fnv64_1a", "Verif.Props.C36_has160", "Verif.Props.C36_md2", "Verif.Props.C36_md4", "Verif.Props.C36_md5", "Verif.Props.C36_ripemd_128", "Verif.Props.C36_ripemd_160", "Verif.Props.C36_ripemd_256", "Verif.Props.C36_ripemd_320", "Verif.Props.C36_siphash", "Verif.Props.C36_sha1", "Verif.Props.C36_sha2_224", "Verif.Props.C36_sha2_256", "Verif.Props.C36_sha2_384", "Verif.Props.C36_sha2_512", "Verif.Props.C36_sha2_512_224", "Verif.Props.C36_sha2_512_256", "Verif.Props.C36_sha3_224", "Verif.Props.C36_sha3_256", "Verif.Props.C36_sha3_384", "Verif.Props.C36_sha3_512", "Verif.Props.C36_sm3", "Verif.Props.C36_tiger1_192", "Verif.Props.C36_tiger2_192", "Verif.Props.C36_whirlpool", "Verif.Props.C36_shake_128", "Verif.Props.C36_shake_256", "Verif.Props.C36_tuple_hash_128", "Verif.Props.C36_tuple_hash_256", "Verif.Props.C36_cshake_128_actual", "Verif.Props.C36_cshake_256_actual", "Verif.Props.C36_cshake_128_fails", "Verif.Props.C36_blake1_224_partial", "Verif.Props.C36_blake1_256_partial", "Verif.Props.C36_blake1_384_partial", "Verif.Props.C36_blake1_512_partial", "Verif.Props.C36_blake1_fails", "Verif.Props.C36_tiger_short_fails", "Verif.Props.C36_usage_options", "Verif.Props.C36_unknown_option", "Verif.Props.C36_no_option", "Verif.Props.C36_argument_count", "Verif.Props.C36_not_a_number", "Verif.Props.C36_large_length_fails", "Verif.Props.C36_negative_length_fails", "Verif.Props.C36_no_arguments_fails"], "note": "Proved for every option whose class is right. False: -cshake-* use the customization argument as function name (C36_cshake_128_fails, _actual says what is printed), short Tiger options write past an array, -blake1-* inherit C18, lengths of 2^31 and more and negative ones end the program with an uncaught exception. Names, usage text, argument counts and unknown options are proved."},
 {"property": "C37", "status": "proved", "theorems": ["Verif.Props.C37_CSHAKE_128_short", "Verif.Props.C37_CSHAKE_256_short", "Verif.Props.C37_TupleHash_short", "Verif.Props.C37_CSHAKE", "Verif.Props.C37_TupleHash", "Verif.Props.C37_FNV32_0", "Verif.Props.C37_FNV64_0", "Verif.Props.C37_SHA1", "Verif.Props.C37_SHA2_224", "Verif.Props.C37_SHA2_256", "Verif.Props.C37_SHA2_384", "Verif.Props.C37_SHA2_512", "Verif.Props.C37_SHA2_512_224", "Verif.Props.C37_SHA2_512_256", "Verif.Props.C37_MD4", "Verif.Props.C37_MD5", "Verif.Props.C37_RIPEMD_128", "Verif.Props.C37_RIPEMD_160", "Verif.Props.C37_RIPEMD_256", "Verif.Props.C37_RIPEMD_320", "Verif.Props.C37_HAS_160", "Verif.Props.C37_SM3", "Verif.Props.C37_Tiger1_192", "Verif.Props.C37_Tiger2_192", "Verif.Props.C37_Whirlpool", "Verif.Props.C37_SHA3_224", "Verif.Props.C37_SHA3_256", "Verif.Props.C37_SHA3_384", "Verif.Props.C37_SHA3_512", "Verif.Props.C37_SHAKE_128", "Verif.Props.C37_SHAKE_256", "Verif.Props.C37_MD2", "Verif.Props.C37_Blake1_224", "Verif.Props.C37_Blake1_256", "Verif.Props.C37_Blake1_384", "Verif.Props.C37_Blake1_512", "Verif.Props.C37_Blake2", "Verif.Props.C37_Blake2s", "Verif.Props.C37_SipHash", "Verif.Props.C37_FNV32_1", "Verif.Props.C37_FNV32_1a", "Verif.Props.C37_FNV64_1", "Verif.Props.C37_FNV64_1a", "Verif.Props.C37_CRC_32"], "note": "Every class, all legal histories; cSHAKE and TupleHash for all strings, wherever constructor and calls return (which they do below 2^53 - 256 bytes and 2^28 bytes of TupleHash output: the _short theorems, C02)."},
 {"property": "C38", "status": "proved", "theorems": ["Verif.Props.C38_add", "Verif.Props.C38_mul8", "Verif.Props.C38_counter", "Verif.Props.C38_words"], "note": "All 128-bit values and all byte counts."},
 {"property": "C39", "status": "partial", "theorems": ["Verif.Props.C39_CSHAKE_copy", "Verif.Props.C39_CSHAKE_assign", "Verif.Props.C39_CSHAKE_assign_fails", "Verif.Props.C39_CSHAKE_move", "Verif.Props.C39_CSHAKE_moved_from", "Verif.Props.C39_CSHAKE_no_dangling", "Verif.Props.C39_CSHAKE_one_owner", "Verif.Props.C39_CSHAKE_independent", "Verif.Props.C39_CSHAKE_legal_partial", "Verif.Props.C39_CSHAKE_128_digest_partial", "Verif.Props.C39_CSHAKE_256_digest_partial", "Verif.Props.C39_SHA1", "Verif.Props.C39_SHA2_224", "Verif.Props.C39_SHA2_256", "Verif.Props.C39_SHA2_384", "Verif.Props.C39_SHA2_512", "Verif.Props.C39_SHA2_512_224", "Verif.Props.C39_SHA2_512_256", "Verif.Props.C39_MD4", "Verif.Props.C39_MD5", "Verif.Props.C39_RIPEMD_128", "Verif.Props.C39_RIPEMD_160", "Verif.Props.C39_RIPEMD_256", "Verif.Props.C39_RIPEMD_320", "Verif.Props.C39_HAS_160", "Verif.Props.C39_SM3", "Verif.Props.C39_Tiger1_192", "Verif.Props.C39_Tiger2_192", "Verif.Props.C39_Whirlpool", "Verif.Props.C39_SHA3_224", "Verif.Props.C39_SHA3_256", "Verif.Props.C39_SHA3_384", "Verif.Props.C39_SHA3_512", "Verif.Props.C39_SHAKE_128", "Verif.Props.C39_SHAKE_256", "Verif.Props.C39_MD2", "Verif.Props.C39_Blake1_224", "Verif.Props.C39_Blake1_256", "Verif.Props.C39_Blake1_384", "Verif.Props.C39_Blake1_512", "Verif.Props.C39_Blake2", "Verif.Props.C39_Blake2s", "Verif.Props.C39_SipHash", "Verif.Props.C39_FNV32_1", "Verif.Props.C39_FNV32_1a", "Verif.Props.C39_FNV64_1", "Verif.Props.C39_FNV64_1a", "Verif.Props.C39_CRC_32", "Verif.Props.C39_FNV32_0", "Verif.Props.C39_FNV64_0", "Verif.Props.C39_Tiger_any", "Verif.Props.C39_digest", "KMoves.C39_SHAKE_128_moves", "KMoves.C39_SHAKE_256_moves", "KMoves.C39_SHA3_moves", "KMoves.C39_SHAKE_128_moved_digest", "KMoves.C39_SHAKE_256_moved_digest", "TMoves.C39_TupleHash_partial", "TMoves.C39_TupleHash_128_digest_partial", "TMoves.C39_TupleHash_256_digest_partial", "TMoves.C39_TupleHash_assign_moved_fails", "TMoves.C39_CSHAKE_assign_moved_fails", "Verif.Props.C39_CSHAKE_swap", "Verif.Props.C39_TupleHash_swap_partial"], "note": "Every memberwise-copied class, any program with any number of objects; SHA-3 and SHAKE with moves and with assignments between objects of different lengths. cSHAKE with pointers and heap modelled: no dangling pointer, double free, sharing or leak in any program, objects behave as their own history says; programs keeping to the rules run through for strings shorter than 2^53 - 256 bytes; TupleHash likewise, as values. False: copy assignment between a customised and a plain cSHAKE object (C39_CSHAKE_assign_fails), and copy assignment to a moved-from cSHAKE or TupleHash object (C39_CSHAKE_assign_moved_fails, C39_TupleHash_assign_moved_fails), dereference a null pointer."},
 {"property": "C40", "status": "proved", "theorems": ["Verif.Props.C40_BLAKE_constants", "Verif.Props.C40_BLAKE_IV", "Verif.Props.C40_BLAKE2_IV", "Verif.Props.C40_CRC_32_tables", "Verif.Props.C40_FNV_basis", "Verif.Props.C40_pi_bits", "Verif.Props.C40_MD5_T", "Verif.Props.C40_MD5_calls", "Verif.Props.C40_MD2_from_pi", "Verif.Props.C40_primes", "Verif.Props.C40_SHA2_K32_real", "Verif.Props.C40_SHA2_K64_real", "Verif.Props.C40_SHA2_IV_real", "Verif.Props.C40_SHA2_IV224_real", "Verif.Props.C40_SHA1_K", "Verif.Props.C40_HAS160_K", "Verif.Props.C40_MD4_K", "Verif.Props.C40_RIPEMD_K", "Verif.Props.C40_SipHash_init", "Verif.Props.C40_MD_IV", "Verif.Props.C40_SHA2_K32", "Verif.Props.C40_SHA2_K64", "Verif.Props.C40_SHA2_IV", "Verif.Props.C40_SHA3_round_constants", "Verif.Props.C40_tiger_sboxes", "Verif.Props.C40_MD2_table", "Verif.Props.C40_Whirlpool_tables", "Verif.Props.C40_Whirlpool_rc"], "note": "Every constant for which the standard gives a rule, with pi, sine and roots as real numbers. Constants without a published rule (SM3, BLAKE permutations, rotation counts, word orders, Tiger initial value) are compared with a separate transcription of the standard by the theorems about the digests."},
 {"property": "C41", "status": "proved", "theorems": ["Verif.Props.C41_two_bits", "Verif.Props.C41_two_bits_limit"], "note": "Any two positions closer than 2^32-1 bits, by the order of the register; sharp."},
 {"property": "C42", "status": "partial", "theorems": ["Verif.Props.C42_CSHAKE", "Verif.Props.C42_SHA1", "Verif.Props.C42_SHA1_reset", "Verif.Props.C42_SHA2_224", "Verif.Props.C42_SHA2_224_reset", "Verif.Props.C42_SHA2_256", "Verif.Props.C42_SHA2_256_reset", "Verif.Props.C42_SHA2_384", "Verif.Props.C42_SHA2_384_reset", "Verif.Props.C42_SHA2_512", "Verif.Props.C42_SHA2_512_reset", "Verif.Props.C42_SHA2_512_256", "Verif.Props.C42_SHA2_512_256_reset", "Verif.Props.C42_SHA2_512_224", "Verif.Props.C42_SHA2_512_224_reset", "Verif.Props.C42_MD4", "Verif.Props.C42_MD4_reset", "Verif.Props.C42_MD5", "Verif.Props.C42_MD5_reset", "Verif.Props.C42_RIPEMD_128", "Verif.Props.C42_RIPEMD_128_reset", "Verif.Props.C42_RIPEMD_160", "Verif.Props.C42_RIPEMD_160_reset", "Verif.Props.C42_RIPEMD_256", "Verif.Props.C42_RIPEMD_256_reset", "Verif.Props.C42_RIPEMD_320", "Verif.Props.C42_RIPEMD_320_reset", "Verif.Props.C42_HAS_160", "Verif.Props.C42_HAS_160_reset", "Verif.Props.C42_SM3", "Verif.Props.C42_SM3_reset", "Verif.Props.C42_Tiger1_192", "Verif.Props.C42_Tiger1_192_reset", "Verif.Props.C42_Tiger2_192", "Verif.Props.C42_Tiger2_192_reset", "Verif.Props.C42_Whirlpool", "Verif.Props.C42_Whirlpool_reset", "Verif.Props.C42_SHA3_224", "Verif.Props.C42_SHA3_224_reset", "Verif.Props.C42_SHA3_256", "Verif.Props.C42_SHA3_256_reset", "Verif.Props.C42_SHA3_384", "Verif.Props.C42_SHA3_384_reset", "Verif.Props.C42_SHA3_512", "Verif.Props.C42_SHA3_512_reset", "Verif.Props.C42_SHAKE_128", "Verif.Props.C42_SHAKE_128_reset", "Verif.Props.C42_SHAKE_256", "Verif.Props.C42_SHAKE_256_reset", "Verif.Props.C42_MD2", "Verif.Props.C42_MD2_reset", "Verif.Props.C42_Blake1_224", "Verif.Props.C42_Blake1_224_reset", "Verif.Props.C42_Blake1_256", "Verif.Props.C42_Blake1_256_reset", "Verif.Props.C42_Blake1_384", "Verif.Props.C42_Blake1_384_reset", "Verif.Props.C42_Blake1_512", "Verif.Props.C42_Blake1_512_reset", "Verif.Props.C42_Blake2", "Verif.Props.C42_Blake2_reset", "Verif.Props.C42_Blake2s", "Verif.Props.C42_Blake2s_reset", "Verif.Props.C42_SipHash", "Verif.Props.C42_SipHash_reset", "Verif.Props.C42_CRC_32", "Verif.Props.C42_CRC_32_reset", "Verif.Props.C42_FNV32_0", "Verif.Props.C42_FNV32_1", "Verif.Props.C42_FNV32_1_reset", "Verif.Props.C42_FNV32_1a", "Verif.Props.C42_FNV32_1a_reset", "Verif.Props.C42_FNV64_0", "Verif.Props.C42_FNV64_1", "Verif.Props.C42_FNV64_1_reset", "Verif.Props.C42_FNV64_1a", "Verif.Props.C42_FNV64_1a_reset", "Verif.Props.C42_Tiger_any_partial", "Verif.Props.C42_Tiger_any_reset", "Verif.Props.C42_FNV0_reset_fails", "Verif.Props.C42_SHA3_frozen", "Verif.Props.C42_FNV_any_order", "Verif.Props.C42_CRC_32_twice", "Verif.Props.C42_second_finalize_changes", "Verif.Props.C42_CSHAKE_128_partial", "Verif.Props.C42_CSHAKE_256_partial", "Verif.Props.C42_TupleHash_128_partial", "Verif.Props.C42_TupleHash_256_partial"], "note": "Proved for every class with calls in any order. False parts: reset() of FNV-0 does nothing (C42_FNV0_reset_fails), and reading a Tiger 128/160-bit digest overruns its result (C16_short_overrun). cSHAKE: every object its constructor returns. TupleHash: strings below 2^53 - 256 bytes and lengths below 2^28, beyond which the encoders themselves fail (C29, C22); their reset() drops the customisation (C03)."},
 {"property": "C43", "status": "partial", "theorems": ["Verif.Props.C43_SHA1", "Verif.Props.C43_SHA2_224", "Verif.Props.C43_SHA2_256", "Verif.Props.C43_SHA2_384", "Verif.Props.C43_SHA2_512", "Verif.Props.C43_SHA2_512_224", "Verif.Props.C43_SHA2_512_256", "Verif.Props.C43_MD4", "Verif.Props.C43_MD5", "Verif.Props.C43_RIPEMD_128", "Verif.Props.C43_RIPEMD_160", "Verif.Props.C43_RIPEMD_256", "Verif.Props.C43_RIPEMD_320", "Verif.Props.C43_HAS_160", "Verif.Props.C43_SM3", "Verif.Props.C43_Whirlpool", "Verif.Props.C43_MD2", "Verif.Props.C43_Blake1_224", "Verif.Props.C43_Blake1_256", "Verif.Props.C43_Blake1_384", "Verif.Props.C43_Blake1_512", "Verif.Props.C43_Blake2", "Verif.Props.C43_Blake2s", "Verif.Props.C43_SipHash", "Verif.Props.C43_FNV32_1", "Verif.Props.C43_FNV32_1a", "Verif.Props.C43_FNV64_1", "Verif.Props.C43_FNV64_1a", "Verif.Props.C43_CRC_32", "Verif.Props.C43_FNV32_0", "Verif.Props.C43_FNV64_0", "Verif.Props.C43_Tiger", "Verif.Props.C43_SHA3_224_partial", "Verif.Props.C43_SHA3_256_partial", "Verif.Props.C43_SHA3_384_partial", "Verif.Props.C43_SHA3_512_partial", "Verif.Props.C43_SHAKE_128_partial", "Verif.Props.C43_SHAKE_256_partial", "Verif.Props.C43_SHA3_256_fails", "Verif.Props.C43_SHAKE_128_fails", "KeysCShake.C43_CSHAKE_equivalence", "KeysCShake.C43_TupleHash_equivalence", "KeysCShake.C43_CSHAKE_partial", "KeysCShake.C43_TupleHash_partial", "KeysCShake.C43_CSHAKE_moved_fails"], "note": "Every class but the Keccak based ones: all objects in all states. SHA-3, SHAKE, cSHAKE and TupleHash: == is an equivalence in all states, equal finalised objects with one requested length have one hash (cSHAKE and TupleHash: strings below 2^53 - 256 bytes). False otherwise, with witnesses: C43_SHA3_256_fails, C43_SHAKE_128_fails, C43_CSHAKE_moved_fails."},
 {"property": "C44", "status": "partial", "theorems": ["Verif.Props.C44_pad_injective", "Verif.Props.C44_pad_blocks", "Verif.Props.C44_domains", "Verif.Props.C44_cshake_inputs", "Verif.Props.C44_SHA3_224", "Verif.Props.C44_SHA3_256", "Verif.Props.C44_SHA3_384", "Verif.Props.C44_SHA3_512", "Verif.Props.C44_SHAKE_128", "Verif.Props.C44_SHAKE_256", "Verif.Props.C44_CSHAKE_partial", "Verif.Props.C44_TupleHash_partial"], "note": "Padding, domain separation and collisions for SHA-3 and SHAKE without restriction; cSHAKE and TupleHash for names, customizations and elements shorter than 2^53 - 256 bytes and histories without reset; TupleHash lengths below 2^28 bytes that need the same number of output blocks."},
 {"property": "C45", "status": "proved", "theorems": ["Verif.Props.C45_SHA1_public", "Verif.Props.C45_SHA2_256_public", "Verif.Props.C45_SHA2_512_public", "Verif.Props.C45_MD4_public", "Verif.Props.C45_MD5_public", "Verif.Props.C45_RIPEMD_public", "Verif.Props.C45_HAS_160_public", "Verif.Props.C45_SM3_public", "Verif.Props.C45_Tiger1_public", "Verif.Props.C45_Tiger2_public", "Verif.Props.C45_Whirlpool_public", "Verif.Props.C45_SHA1_state", "Verif.Props.C45_SHA1", "Verif.Props.C45_SHA2_224_state", "Verif.Props.C45_SHA2_256_state", "Verif.Props.C45_SHA2_256", "Verif.Props.C45_SHA2_384_state", "Verif.Props.C45_SHA2_512_state", "Verif.Props.C45_SHA2_512", "Verif.Props.C45_SHA2_512_224_state", "Verif.Props.C45_SHA2_512_256_state", "Verif.Props.C45_MD4_state", "Verif.Props.C45_MD4", "Verif.Props.C45_MD5_state", "Verif.Props.C45_MD5", "Verif.Props.C45_RIPEMD_128_state", "Verif.Props.C45_RIPEMD_128", "Verif.Props.C45_RIPEMD_160_state", "Verif.Props.C45_RIPEMD_160", "Verif.Props.C45_RIPEMD_256_state", "Verif.Props.C45_RIPEMD_256", "Verif.Props.C45_RIPEMD_320_state", "Verif.Props.C45_RIPEMD_320", "Verif.Props.C45_HAS_160_state", "Verif.Props.C45_HAS_160", "Verif.Props.C45_SM3_state", "Verif.Props.C45_SM3", "Verif.Props.C45_Tiger1_192_state", "Verif.Props.C45_Tiger1_192", "Verif.Props.C45_Tiger2_192_state", "Verif.Props.C45_Tiger2_192", "Verif.Props.C45_Whirlpool_state", "Verif.Props.C45_Whirlpool", "Verif.Props.C45_MD5_collisions", "Verif.Props.C45_MD4_collisions", "Verif.Props.C45_MD2_public", "Verif.Props.C45_MD2_checksum", "Verif.Props.C45_MD2", "Verif.Props.C45_HAS_V_320_public", "Verif.Props.C45_HAS_V_320_state", "Verif.Props.C45_HAS_V_320", "Verif.Props.C45_SHA1_collisions"], "note": "All Merkle-Damg\u00e5rd classes without restriction, Whirlpool for lengthened messages below 2^125 bytes (its counter has 128 bits, the length field of the standard 256). For SHA-224, SHA-384 and SHA-512/t about == only, since their digests are a part of the state."},
 {"property": "C46", "status": "proved", "theorems": ["Verif.Props.C46_forge", "Verif.Props.C46_surjective", "Verif.Props.C46_concat", "Verif.Props.C46_combine", "Verif.Props.C46_residue"], "note": "No restriction."},
 {"property": "C47", "status": "proved", "theorems": ["Verif.Props.C47_CSHAKE", "Verif.Props.C47_TupleHash", "Verif.Props.C47_SHA1", "Verif.Props.C47_SHA2_224", "Verif.Props.C47_SHA2_256", "Verif.Props.C47_SHA2_384", "Verif.Props.C47_SHA2_512", "Verif.Props.C47_SHA2_512_224", "Verif.Props.C47_SHA2_512_256", "Verif.Props.C47_MD4", "Verif.Props.C47_MD5", "Verif.Props.C47_RIPEMD_128", "Verif.Props.C47_RIPEMD_160", "Verif.Props.C47_RIPEMD_256", "Verif.Props.C47_RIPEMD_320", "Verif.Props.C47_HAS_160", "Verif.Props.C47_SM3", "Verif.Props.C47_Tiger", "Verif.Props.C47_Whirlpool", "Verif.Props.C47_SHA3_224", "Verif.Props.C47_SHA3_256", "Verif.Props.C47_SHA3_384", "Verif.Props.C47_SHA3_512", "Verif.Props.C47_SHAKE_128", "Verif.Props.C47_SHAKE_256", "Verif.Props.C47_MD2", "Verif.Props.C47_Blake1_224", "Verif.Props.C47_Blake1_256", "Verif.Props.C47_Blake1_384", "Verif.Props.C47_Blake1_512", "Verif.Props.C47_SipHash", "Verif.Props.C47_Blake2", "Verif.Props.C47_Blake2s", "Verif.Props.C47_CRC_32", "Verif.Props.C47_FNV32_0", "Verif.Props.C47_FNV32_1", "Verif.Props.C47_FNV32_1a", "Verif.Props.C47_FNV64_0", "Verif.Props.C47_FNV64_1", "Verif.Props.C47_FNV64_1a", "Verif.Props.C47_SipHash_key", "Verif.Props.C47_CSHAKE_short", "Verif.Props.C47_TupleHash_short", "Verif.Props.C47_null_pointer"], "note": "All classes. For cSHAKE and TupleHash every object a constructor returned; with pointers and with bytes the calls do the same, and fault alike where TupleHash cannot encode a length."},
 {"property": "C48", "status": "partial", "theorems": ["Verif.Props.C48_SHA1", "Verif.Props.C48_SHA2_224", "Verif.Props.C48_SHA2_256", "Verif.Props.C48_SHA2_384", "Verif.Props.C48_SHA2_512", "Verif.Props.C48_SHA2_512_224", "Verif.Props.C48_SHA2_512_256", "Verif.Props.C48_MD4", "Verif.Props.C48_MD5", "Verif.Props.C48_RIPEMD_128", "Verif.Props.C48_RIPEMD_160", "Verif.Props.C48_RIPEMD_256", "Verif.Props.C48_RIPEMD_320", "Verif.Props.C48_HAS_160", "Verif.Props.C48_SM3", "Verif.Props.C48_Tiger", "Verif.Props.C48_Whirlpool", "Verif.Props.C48_SHA3_224", "Verif.Props.C48_SHA3_256", "Verif.Props.C48_SHA3_384", "Verif.Props.C48_SHA3_512", "Verif.Props.C48_SHAKE_128", "Verif.Props.C48_SHAKE_256", "Verif.Props.C48_MD2", "Verif.Props.C48_Blake1_224", "Verif.Props.C48_Blake1_256", "Verif.Props.C48_Blake1_384", "Verif.Props.C48_Blake1_512", "Verif.Props.C48_Blake2", "Verif.Props.C48_Blake2s", "Verif.Props.C48_SipHash", "Verif.Props.C48_SipHash_key", "Verif.Props.C48_SipHash_wrong_key", "Verif.Props.C48_CSHAKE_partial", "Verif.Props.C48_TupleHash_partial"], "note": "Every class for all histories. cSHAKE and TupleHash: wherever the debug build does not fault; it does fault for strings of 2^53 - 256 bytes or more (C42), where the release build overruns a buffer."},
 {"property": "C49", "status": "proved", "theorems": ["Verif.Props.C49_computes", "Verif.Props.C49_streaming", "Verif.Props.C49_safe", "Verif.Props.C49_reset", "Verif.Props.C49_size", "Verif.Props.C49_anyOrder", "Verif.Props.C49_anyOrder_reset", "Verif.Props.C49_padding", "Verif.Props.C49_disabled_block", "Verif.Props.C49_disabled_computes", "Verif.Props.C49_vectors_fails", "Verif.Props.C49_vectors_disabled_fails", "Verif.Props.C49_toString", "Verif.Props.C49_vector_computes", "Verif.Props.C49_vector_anyOrder"], "note": "About the function described in Spec/HASV.lean, which is what the code computes; the published HAS-V is not available here and the class does not meet the vectors of its own test (C49_vectors_fails). The class with its std::vector (C49_vector_*) computes the same as long as there is memory; without, see C68. The main of the test file is not modelled."},
 {"property": "C50", "status": "partial", "theorems": ["Verif.Props.C50_SHA3_224_throwsOrWorks", "Verif.Props.C50_SHA3_224_survives", "Verif.Props.C50_SHA3_224_resetRepairs", "Verif.Props.C50_SHA3_224_retry_actual", "Verif.Props.C50_SHA3_256_throwsOrWorks", "Verif.Props.C50_SHA3_256_survives", "Verif.Props.C50_SHA3_256_resetRepairs", "Verif.Props.C50_SHA3_256_retry_actual", "Verif.Props.C50_SHA3_384_throwsOrWorks", "Verif.Props.C50_SHA3_384_survives", "Verif.Props.C50_SHA3_384_resetRepairs", "Verif.Props.C50_SHA3_384_retry_actual", "Verif.Props.C50_SHA3_512_throwsOrWorks", "Verif.Props.C50_SHA3_512_survives", "Verif.Props.C50_SHA3_512_resetRepairs", "Verif.Props.C50_SHA3_512_retry_actual", "Verif.Props.C50_SHAKE_128_throwsOrWorks", "Verif.Props.C50_SHAKE_128_survives", "Verif.Props.C50_SHAKE_128_resetRepairs", "Verif.Props.C50_SHAKE_128_retry_actual", "Verif.Props.C50_SHAKE_256_throwsOrWorks", "Verif.Props.C50_SHAKE_256_survives", "Verif.Props.C50_SHAKE_256_resetRepairs", "Verif.Props.C50_SHAKE_256_retry_actual", "Verif.Props.C50_SHA3_256_retry_fails", "Verif.Props.C50_assign_usable", "Verif.Props.C50_SHAKE_128_assign_fails", "Verif.Props.C50_CSHAKE_no_dangling", "Verif.Props.C50_CSHAKE_one_owner", "Verif.Props.C50_CSHAKE_throwsOrWorks", "Verif.Props.C50_CSHAKE_constructor", "Verif.Props.C50_CSHAKE_others", "Verif.Props.C50_toArray_reads", "Verif.Props.C50_SHA3_reads", "Verif.Props.C50_SHA3_convert_partial", "Verif.Props.C50_SHA3_convert_fails", "Verif.Props.C50_CSHAKE_reads", "Verif.Props.C50_CSHAKE_calls", "Verif.Props.C50_TupleHash_calls", "Verif.Props.C50_CSHAKE_survives", "Verif.Props.C50_TupleHash_survives", "Verif.Props.C50_CSHAKE_retry_actual", "Verif.Props.C50_TupleHash_retry_actual"], "note": "proved: no fault, no leak, other objects unaffected, a call that returns has worked, reads throw or give the usual result, reset() repairs; conversions of the classes with toArray never fail. False of the code: that finalize() can be repeated after it threw (C50_SHA3_256_retry_fails), that a failed copy assignment leaves the target alone (C50_SHAKE_128_assign_fails) and that the noexcept conversions of SHA-3, SHAKE, cSHAKE and TupleHash objects never end the program (C50_SHA3_convert_fails); the _actual theorems say what happens instead"},
 {"property": "C51", "status": "proved", "theorems": ["Verif.Props.C51_CSHAKE", "Verif.Props.C51_TupleHash", "Verif.Props.C51_SHA1", "Verif.Props.C51_SHA2_224", "Verif.Props.C51_SHA2_256", "Verif.Props.C51_SHA2_384", "Verif.Props.C51_SHA2_512", "Verif.Props.C51_SHA2_512_224", "Verif.Props.C51_SHA2_512_256", "Verif.Props.C51_MD4", "Verif.Props.C51_MD5", "Verif.Props.C51_RIPEMD_128", "Verif.Props.C51_RIPEMD_160", "Verif.Props.C51_RIPEMD_256", "Verif.Props.C51_RIPEMD_320", "Verif.Props.C51_HAS_160", "Verif.Props.C51_SM3", "Verif.Props.C51_Tiger", "Verif.Props.C51_Whirlpool", "Verif.Props.C51_SHA3_224", "Verif.Props.C51_SHA3_256", "Verif.Props.C51_SHA3_384", "Verif.Props.C51_SHA3_512", "Verif.Props.C51_SHAKE_128", "Verif.Props.C51_SHAKE_256", "Verif.Props.C51_MD2", "Verif.Props.C51_Blake1_224", "Verif.Props.C51_Blake1_256", "Verif.Props.C51_Blake1_384", "Verif.Props.C51_Blake1_512", "Verif.Props.C51_SipHash", "Verif.Props.C51_Blake2", "Verif.Props.C51_Blake2s", "Verif.Props.C51_CRC_32", "Verif.Props.C51_FNV32_0", "Verif.Props.C51_FNV32_1", "Verif.Props.C51_FNV32_1a", "Verif.Props.C51_FNV64_0", "Verif.Props.C51_FNV64_1", "Verif.Props.C51_FNV64_1a", "Verif.Props.C51_readOnce", "Verif.Props.C51_MD5_loader", "Verif.Props.C51_message", "Verif.Props.C51_SHA2_256_digest", "Verif.Props.C51_CSHAKE_short", "Verif.Props.C51_TupleHash_short", "Verif.Props.C51_many", "Verif.Props.C51_disturbed_fails"], "note": "All classes, all histories that return when made alone (TupleHash can fail to encode a length, C22)."},
 {"property": "C52", "status": "partial", "theorems": ["Verif.Props.C52_SHA1", "Verif.Props.C52_SHA2_224", "Verif.Props.C52_SHA2_256", "Verif.Props.C52_SHA2_384", "Verif.Props.C52_SHA2_512", "Verif.Props.C52_SHA2_512_224", "Verif.Props.C52_SHA2_512_256", "Verif.Props.C52_MD4", "Verif.Props.C52_MD5", "Verif.Props.C52_RIPEMD_128", "Verif.Props.C52_RIPEMD_160", "Verif.Props.C52_RIPEMD_256", "Verif.Props.C52_RIPEMD_320", "Verif.Props.C52_HAS_160", "Verif.Props.C52_SM3", "Verif.Props.C52_Tiger", "Verif.Props.C52_Whirlpool", "Verif.Props.C52_SHA3_224", "Verif.Props.C52_SHA3_256", "Verif.Props.C52_SHA3_384", "Verif.Props.C52_SHA3_512", "Verif.Props.C52_SHAKE_128", "Verif.Props.C52_SHAKE_256", "Verif.Props.C52_MD2", "Verif.Props.C52_Blake1_224", "Verif.Props.C52_Blake1_256", "Verif.Props.C52_Blake1_384", "Verif.Props.C52_Blake1_512", "Verif.Props.C52_Blake2", "Verif.Props.C52_Blake2s", "Verif.Props.C52_SipHash", "Verif.Props.C52_CRC_32", "Verif.Props.C52_CSHAKE_partial", "Verif.Props.C52_TupleHash_partial", "Verif.Props.C52_CSHAKE_128_32bit_partial", "Verif.Props.C52_CSHAKE_256_32bit_partial", "Verif.Props.C52_TupleHash_128_32bit_partial", "Verif.Props.C52_TupleHash_256_32bit_partial", "Verif.Props.C52_TupleHash_actual", "Verif.Props.C52_TupleHash_32bit_fails", "Verif.Props.C52_CSHAKE_32bit_fails"], "note": "Proved for every class but cSHAKE and TupleHash for all histories and all widths from 16 to 64 bits. For cSHAKE and TupleHash proved while the bit lengths of names, customisations and elements fit in size_t; false above (C52_TupleHash_32bit_fails, C52_CSHAKE_32bit_fails), where C52_TupleHash_actual says what is computed."},
 {"property": "C53", "status": "partial", "theorems": ["Verif.Props.C53_SHA1", "Verif.Props.C53_SHA2_224", "Verif.Props.C53_SHA2_256", "Verif.Props.C53_SHA2_384", "Verif.Props.C53_SHA2_512", "Verif.Props.C53_SHA2_512_224", "Verif.Props.C53_SHA2_512_256", "Verif.Props.C53_MD4", "Verif.Props.C53_MD5", "Verif.Props.C53_RIPEMD_128", "Verif.Props.C53_RIPEMD_160", "Verif.Props.C53_RIPEMD_256", "Verif.Props.C53_RIPEMD_320", "Verif.Props.C53_HAS_160", "Verif.Props.C53_SM3", "Verif.Props.C53_Tiger", "Verif.Props.C53_Whirlpool", "Verif.Props.C53_SHA3_224", "Verif.Props.C53_SHA3_256", "Verif.Props.C53_SHA3_384", "Verif.Props.C53_SHA3_512", "Verif.Props.C53_SHAKE_128", "Verif.Props.C53_SHAKE_256", "Verif.Props.C53_MD2", "Verif.Props.C53_Blake1_224", "Verif.Props.C53_Blake1_256", "Verif.Props.C53_Blake1_384", "Verif.Props.C53_Blake1_512", "Verif.Props.C53_Blake2", "Verif.Props.C53_Blake2s", "Verif.Props.C53_CRC_32", "Verif.Props.C53_FNV32_0", "Verif.Props.C53_FNV32_1", "Verif.Props.C53_FNV32_1a", "Verif.Props.C53_FNV64_0", "Verif.Props.C53_FNV64_1", "Verif.Props.C53_FNV64_1a", "Verif.Props.C53_SipHash", "Verif.Props.C53_CSHAKE", "Verif.Props.C53_TupleHash", "Verif.Props.C53_readOnce", "Verif.Props.C53_MD5_loader", "Verif.Props.C53_CRC_32_tables_fails", "Verif.Props.C53_MD2_tables_fails", "Verif.Props.C53_Tiger_tables_fails", "Verif.Props.C53_Whirlpool_tables_fails"], "note": "Proved for the caller's memory for every class. Not for the constant tables: crc_32.h, md2.h, tiger.h and whirlpool.h index them with message bytes, and which elements are read determines the message (C53_CRC_32_tables_fails, C53_MD2_tables_fails, C53_Tiger_tables_fails, C53_Whirlpool_tables_fails). Accesses to the object's own members are not modelled."},
 {"property": "C54", "status": "proved", "theorems": ["Verif.Props.C54_three_bits", "Verif.Props.C54_three_bits_apart", "Verif.Props.C54_three_bits_limit"], "note": "Bit errors in the message, the digest being transmitted without error. The limit is shown to be sharp (C54_three_bits_limit, and an example with two messages of 11455 bytes)."},
 {"property": "C55", "status": "proved", "theorems": ["Verif.Props.C55_SHA1", "Verif.Props.C55_SHA2_224", "Verif.Props.C55_SHA2_256", "Verif.Props.C55_SHA2_384", "Verif.Props.C55_SHA2_512", "Verif.Props.C55_SHA2_512_224", "Verif.Props.C55_SHA2_512_256", "Verif.Props.C55_MD4", "Verif.Props.C55_MD5", "Verif.Props.C55_HAS_160", "Verif.Props.C55_SM3", "Verif.Props.C55_Whirlpool", "Verif.Props.C55_HAS_V_320", "Verif.Props.C55_RIPEMD_128", "Verif.Props.C55_RIPEMD_160", "Verif.Props.C55_RIPEMD_256", "Verif.Props.C55_RIPEMD_320", "Verif.Props.C55_Tiger", "Verif.Props.C55_Blake1_224", "Verif.Props.C55_Blake1_256", "Verif.Props.C55_Blake1_384", "Verif.Props.C55_Blake1_512", "Verif.Props.C55_Blake2", "Verif.Props.C55_Blake2s", "Verif.Props.C55_SHA3_224", "Verif.Props.C55_SHA3_256", "Verif.Props.C55_SHA3_384", "Verif.Props.C55_SHA3_512", "Verif.Props.C55_SHAKE_128", "Verif.Props.C55_SHAKE_256", "Verif.Props.C55_MD2", "Verif.Props.C55_SipHash", "Verif.Props.C55_FNV", "Verif.Props.C55_CRC_32", "Verif.Props.C55_CRC_32_pieces", "Verif.Props.C55_pieces", "Verif.Props.C55_padding", "Verif.Props.C55_CSHAKE", "Verif.Props.C55_TupleHash"], "note": "Runs of the block function are counted, not instructions or time; what one run does does not depend on the data either except for table addresses (C53)."},
 {"property": "C56", "status": "proved", "theorems": ["Verif.Props.C56_SHA3_224", "Verif.Props.C56_SHA3_224_one_block", "Verif.Props.C56_SHA3_224_last_block", "Verif.Props.C56_SHA3_256", "Verif.Props.C56_SHA3_256_one_block", "Verif.Props.C56_SHA3_256_last_block", "Verif.Props.C56_SHA3_384", "Verif.Props.C56_SHA3_384_one_block", "Verif.Props.C56_SHA3_384_last_block", "Verif.Props.C56_SHA3_512", "Verif.Props.C56_SHA3_512_one_block", "Verif.Props.C56_SHA3_512_last_block", "Verif.Props.C56_SHAKE_128", "Verif.Props.C56_SHAKE_128_one_block", "Verif.Props.C56_SHAKE_128_last_block", "Verif.Props.C56_SHAKE_256", "Verif.Props.C56_SHAKE_256_one_block", "Verif.Props.C56_SHAKE_256_last_block", "Verif.Props.C56_SipHash", "Verif.Props.C56_SipHash_keys", "Verif.Props.C56_FNV32_1", "Verif.Props.C56_FNV32_1a", "Verif.Props.C56_FNV64_1", "Verif.Props.C56_FNV64_1a", "Verif.Props.C56_CRC_32", "Verif.Props.C56_CSHAKE_one_block", "Verif.Props.C56_CSHAKE_custom"], "note": "Stated with operator== of the classes; the cSHAKE theorems are about histories without reset() (which drops the customization, see C21)."},
 {"property": "C57", "status": "partial", "theorems": ["Verif.Props.C57_SHA1", "Verif.Props.C57_SHA1_equal", "Verif.Props.C57_SHA2_224", "Verif.Props.C57_SHA2_224_equal", "Verif.Props.C57_SHA2_256", "Verif.Props.C57_SHA2_256_equal", "Verif.Props.C57_SHA2_384", "Verif.Props.C57_SHA2_384_equal", "Verif.Props.C57_SHA2_512", "Verif.Props.C57_SHA2_512_equal", "Verif.Props.C57_SHA2_512_224", "Verif.Props.C57_SHA2_512_224_equal", "Verif.Props.C57_SHA2_512_256", "Verif.Props.C57_SHA2_512_256_equal", "Verif.Props.C57_MD4", "Verif.Props.C57_MD4_equal", "Verif.Props.C57_MD5", "Verif.Props.C57_MD5_equal", "Verif.Props.C57_HAS_160", "Verif.Props.C57_HAS_160_equal", "Verif.Props.C57_SM3", "Verif.Props.C57_SM3_equal", "Verif.Props.C57_Whirlpool", "Verif.Props.C57_Whirlpool_equal", "Verif.Props.C57_RIPEMD_128", "Verif.Props.C57_RIPEMD_128_equal", "Verif.Props.C57_RIPEMD_160", "Verif.Props.C57_RIPEMD_160_equal", "Verif.Props.C57_RIPEMD_256", "Verif.Props.C57_RIPEMD_256_equal", "Verif.Props.C57_RIPEMD_320", "Verif.Props.C57_RIPEMD_320_equal", "Verif.Props.C57_Tiger", "Verif.Props.C57_Tiger_equal", "Verif.Props.C57_HAS_V_320", "Verif.Props.C57_MD2", "Verif.Props.C57_Blake1_224", "Verif.Props.C57_Blake1_224_equal", "Verif.Props.C57_Blake1_256", "Verif.Props.C57_Blake1_256_equal", "Verif.Props.C57_Blake1_384", "Verif.Props.C57_Blake1_384_equal", "Verif.Props.C57_Blake1_512", "Verif.Props.C57_Blake1_512_equal", "Verif.Props.C57_Blake2_equal", "Verif.Props.C57_Blake2", "Verif.Props.C57_Blake2s_equal", "Verif.Props.C57_Blake2s", "Verif.Props.C57_SHA3_224", "Verif.Props.C57_SHA3_224_equal", "Verif.Props.C57_SHA3_256", "Verif.Props.C57_SHA3_256_equal", "Verif.Props.C57_SHA3_384", "Verif.Props.C57_SHA3_384_equal", "Verif.Props.C57_SHA3_512", "Verif.Props.C57_SHA3_512_equal", "Verif.Props.C57_SHAKE_128", "Verif.Props.C57_SHAKE_128_equal", "Verif.Props.C57_SHAKE_256", "Verif.Props.C57_SHAKE_256_equal", "Verif.Props.C57_SipHash", "Verif.Props.C57_SipHash_equal", "Verif.Props.C57_FNV32_1", "Verif.Props.C57_FNV32_1_equal", "Verif.Props.C57_FNV32_1a", "Verif.Props.C57_FNV32_1a_equal", "Verif.Props.C57_FNV64_1", "Verif.Props.C57_FNV64_1_equal", "Verif.Props.C57_FNV64_1a", "Verif.Props.C57_FNV64_1a_equal", "Verif.Props.C57_CRC_32", "Verif.Props.C57_CRC_32_equal", "Verif.Props.C57_FNV32_0_fails", "Verif.Props.C57_FNV64_0_fails", "Verif.Props.C57_FNV_0_partial", "Verif.Props.C57_CSHAKE", "Verif.Props.C57_CSHAKE_equal", "Verif.Props.C57_CSHAKE_plain", "Verif.Props.C57_TupleHash", "Verif.Props.C57_later"], "note": "all classes; FNV-0's reset() does nothing, so C57_FNV32_0_fails and C57_FNV64_0_fails, and C57_FNV_0_partial without reset(); MD2 and HAS_V_320 have no second half (== of MD2 ignores the checksum, HAS_V_320 has no ==); cSHAKE and TupleHash within the limits of C29 and C22, first half only for TupleHash"},
 {"property": "C58", "status": "proved", "theorems": ["Verif.Props.C58_SHA1", "Verif.Props.C58_SHA2_224", "Verif.Props.C58_SHA2_256", "Verif.Props.C58_SHA2_384", "Verif.Props.C58_SHA2_512", "Verif.Props.C58_SHA2_512_224", "Verif.Props.C58_SHA2_512_256", "Verif.Props.C58_MD4", "Verif.Props.C58_MD5", "Verif.Props.C58_RIPEMD_128", "Verif.Props.C58_RIPEMD_160", "Verif.Props.C58_RIPEMD_256", "Verif.Props.C58_RIPEMD_320", "Verif.Props.C58_HAS_160", "Verif.Props.C58_SM3", "Verif.Props.C58_Tiger", "Verif.Props.C58_Whirlpool", "Verif.Props.C58_SHA3_224", "Verif.Props.C58_SHA3_256", "Verif.Props.C58_SHA3_384", "Verif.Props.C58_SHA3_512", "Verif.Props.C58_SHAKE_128", "Verif.Props.C58_SHAKE_256", "Verif.Props.C58_MD2", "Verif.Props.C58_Blake1_224", "Verif.Props.C58_Blake1_256", "Verif.Props.C58_Blake1_384", "Verif.Props.C58_Blake1_512", "Verif.Props.C58_SipHash", "Verif.Props.C58_Blake2", "Verif.Props.C58_Blake2s", "Verif.Props.C58_CRC_32", "Verif.Props.C58_FNV32_0", "Verif.Props.C58_FNV32_1", "Verif.Props.C58_FNV32_1a", "Verif.Props.C58_FNV64_0", "Verif.Props.C58_FNV64_1", "Verif.Props.C58_FNV64_1a", "Verif.Props.C58_CSHAKE", "Verif.Props.C58_CSHAKE_short", "Verif.Props.C58_TupleHash", "Verif.Props.C58_TupleHash_short", "Verif.Props.C58_SipHash_key", "Verif.Props.C58_null_pointer_differs"], "note": "all classes; cSHAKE and TupleHash with the limits of C29 and C22 where they say that both builds get through"},
 {"property": "C59", "status": "partial", "theorems": ["Verif.Props.C59_integers", "Verif.Props.C59_injective", "Verif.Props.C59_types_merge", "Verif.Props.C59_portable_partial", "Verif.Props.C59_bytes", "Verif.Props.C59_portable_fails", "Verif.Props.C59_padding_fails"], "note": "portability and equal digests of equal structures fail (C59_portable_fails, C59_padding_fails); C59_portable_partial says which arrays of integers are portable"},
 {"property": "C60", "status": "partial", "theorems": ["Verif.Props.C60_SHA1", "Verif.Props.C60_SHA2_224", "Verif.Props.C60_SHA2_256", "Verif.Props.C60_SHA2_384", "Verif.Props.C60_SHA2_512", "Verif.Props.C60_SHA2_512_256", "Verif.Props.C60_SHA2_512_224", "Verif.Props.C60_MD4", "Verif.Props.C60_MD5", "Verif.Props.C60_RIPEMD_128", "Verif.Props.C60_RIPEMD_160", "Verif.Props.C60_RIPEMD_256", "Verif.Props.C60_RIPEMD_320", "Verif.Props.C60_HAS_160", "Verif.Props.C60_SM3", "Verif.Props.C60_Tiger1_192", "Verif.Props.C60_Tiger2_192", "Verif.Props.C60_Whirlpool", "Verif.Props.C60_SHA3_224", "Verif.Props.C60_SHA3_256", "Verif.Props.C60_SHA3_384", "Verif.Props.C60_SHA3_512", "Verif.Props.C60_SHAKE_128", "Verif.Props.C60_SHAKE_256", "Verif.Props.C60_MD2", "Verif.Props.C60_Blake1_224", "Verif.Props.C60_Blake1_256", "Verif.Props.C60_Blake1_384", "Verif.Props.C60_Blake1_512", "Verif.Props.C60_Blake2", "Verif.Props.C60_Blake2s", "Verif.Props.C60_SipHash", "Verif.Props.C60_Tiger_any", "Verif.Props.C60_Keccak", "Verif.Props.C60_Keccak_reuse", "Verif.Props.C60_CSHAKE", "Verif.Props.C60_TupleHash", "Verif.Props.C60_tool_pieces", "Verif.Props.C60_tool_tuple_actual"], "note": "Every class; cSHAKE and TupleHash for all objects their constructors return. Memory is that of the vectors and buffers, not the allocator's own. False for the -tuple-hash-* options of the tool, which read the whole file (C60_tool_tuple_actual)."},
 {"property": "C61", "status": "partial", "theorems": ["Verif.Props.C61_SHA1", "Verif.Props.C61_SHA2_224", "Verif.Props.C61_SHA2_256", "Verif.Props.C61_SHA2_384", "Verif.Props.C61_SHA2_512", "Verif.Props.C61_SHA2_512_224", "Verif.Props.C61_SHA2_512_256", "Verif.Props.C61_MD4", "Verif.Props.C61_MD5", "Verif.Props.C61_HAS_160", "Verif.Props.C61_HAS_V_320", "Verif.Props.C61_SM3", "Verif.Props.C61_RIPEMD_128", "Verif.Props.C61_RIPEMD_160", "Verif.Props.C61_RIPEMD_256", "Verif.Props.C61_RIPEMD_320", "Verif.Props.C61_Blake1_224", "Verif.Props.C61_Blake1_256", "Verif.Props.C61_Blake1_384", "Verif.Props.C61_Blake1_512", "Verif.Props.C61_Blake2", "Verif.Props.C61_Blake2s", "Verif.Props.C61_Keccak", "Verif.Props.C61_SHA3_224", "Verif.Props.C61_SHA3_256", "Verif.Props.C61_SHA3_384", "Verif.Props.C61_SHA3_512", "Verif.Props.C61_SHAKE_128", "Verif.Props.C61_SHAKE_256", "Verif.Props.C61_SipHash", "Verif.Props.C61_FNV", "Verif.Props.C61_CRC_32_partial", "Verif.Props.C61_MD2_partial", "Verif.Props.C61_Tiger_partial", "Verif.Props.C61_Whirlpool_partial", "Verif.Props.C61_CRC_32_fails", "Verif.Props.C61_MD2_fails", "Verif.Props.C61_Tiger_fails", "Verif.Props.C61_Whirlpool_fails", "Verif.Props.C61_counts", "Verif.Props.C61_CSHAKE", "Verif.Props.C61_TupleHash"], "note": "Holds for all classes without table lookups. CRC-32, MD2, Tiger and Whirlpool look constants up at indices taken from the data (_fails); the _partial theorems say that nothing else depends on it. The log has the operations of the block functions (for SipHash also of the key schedule and finalize, for Keccak also of squeezing); size counters, buffer handling and toArray, which depend on lengths only, are not in it."},
 {"property": "C62", "status": "partial", "theorems": ["Verif.Props.C62_Blake2_inputs", "Verif.Props.C62_Blake2s_inputs", "Verif.Props.C62_Blake1_224_inputs", "Verif.Props.C62_Blake1_256_inputs", "Verif.Props.C62_Blake1_384_inputs", "Verif.Props.C62_Blake1_512_inputs", "Verif.Props.C62_Blake2", "Verif.Props.C62_Blake2s", "Verif.Props.C62_BLAKE_spec", "Verif.Props.C62_Blake1_224", "Verif.Props.C62_Blake1_256_exact", "Verif.Props.C62_Blake1_384_exact", "Verif.Props.C62_Blake1_512_exact", "Verif.Props.C62_Blake1_256_fails", "Verif.Props.C62_Blake1_384_fails", "Verif.Props.C62_Blake1_512_fails", "Verif.Props.C62_Blake1_fails", "Verif.Props.C62_Blake1_256_partial", "Verif.Props.C62_Blake1_384_partial", "Verif.Props.C62_Blake1_512_partial", "Verif.Props.C62_Blake1_256_extension", "Verif.Props.C62_Blake1_512_extension"], "note": "BLAKE2, BLAKE2s, Blake1_224 and specified BLAKE: proved; false for Blake1_256, Blake1_384, Blake1_512 (counter bug of C18): exact description of the pairs, proved part, and the length extension that follows"},
 {"property": "C63", "status": "proved", "theorems": ["Verif.Props.C63_SHA1", "Verif.Props.C63_SHA2_224", "Verif.Props.C63_SHA2_256", "Verif.Props.C63_SHA2_384", "Verif.Props.C63_SHA2_512", "Verif.Props.C63_SHA2_512_224", "Verif.Props.C63_SHA2_512_256", "Verif.Props.C63_MD4", "Verif.Props.C63_MD5", "Verif.Props.C63_HAS_160", "Verif.Props.C63_HAS_V_320", "Verif.Props.C63_SM3", "Verif.Props.C63_RIPEMD_128", "Verif.Props.C63_RIPEMD_160", "Verif.Props.C63_RIPEMD_256", "Verif.Props.C63_RIPEMD_320", "Verif.Props.C63_Blake1_224", "Verif.Props.C63_Blake1_256", "Verif.Props.C63_Blake1_384", "Verif.Props.C63_Blake1_512", "Verif.Props.C63_Blake2", "Verif.Props.C63_Blake2s", "Verif.Props.C63_Keccak", "Verif.Props.C63_SHA3_224", "Verif.Props.C63_SHA3_256", "Verif.Props.C63_SHA3_384", "Verif.Props.C63_SHA3_512", "Verif.Props.C63_SHAKE_128", "Verif.Props.C63_SHAKE_256", "Verif.Props.C63_SipHash", "Verif.Props.C63_FNV", "Verif.Props.C63_CRC_32", "Verif.Props.C63_MD2", "Verif.Props.C63_Tiger", "Verif.Props.C63_Whirlpool", "Verif.Props.C63_CSHAKE", "Verif.Props.C63_TupleHash"], "note": "shifts made by the block functions, word loaders and rotations; the shifts of the length fields, toArray, operator T and the length encoders are not in the logs"},
 {"property": "C64", "status": "partial", "theorems": ["Verif.Props.C64_output", "Verif.Props.C64_not_usage", "Verif.Props.C64_line", "Verif.Props.C64_same_output", "Verif.Props.C64_list_partial", "Verif.Props.C64_list_fails", "Verif.Props.C64_forged_fails"], "note": "C64_output, C64_not_usage, C64_line and C64_same_output hold for every run; C64_list_partial needs names without line feed; C64_list_fails and C64_forged_fails show what happens otherwise"},
 {"property": "C65", "status": "proved", "theorems": ["Verif.Props.C65_four_bits", "Verif.Props.C65_five_bits", "Verif.Props.C65_bits_apart", "Verif.Props.C65_four_bits_limit", "Verif.Props.C65_five_bits_limit"], "note": "Bit errors in the message, the digest being transmitted without error. Both limits are shown to be sharp (C65_four_bits_limit, C65_five_bits_limit, and examples with two messages of 376 and of 38 bytes)."},
 {"property": "C66", "status": "proved", "theorems": ["Verif.Props.C66_any_digest_32", "Verif.Props.C66_any_digest_64", "Verif.Props.C66_infinitely_many_32", "Verif.Props.C66_infinitely_many_64", "Verif.Props.C66_collision_32", "Verif.Props.C66_collision_64"], "note": "Existence, not a bound on how many bytes are needed."},
 {"property": "C67", "status": "proved", "theorems": ["Verif.Props.C67_HAS_160_block", "Verif.Props.C67_HAS_160", "Verif.Props.C67_HAS_V_320_block", "Verif.Props.C67_HAS_V_320", "Verif.Props.C67_HAS_V_320_construct", "Verif.Props.C67_HAS_V_320_toArray", "Verif.Props.C67_HAS_V_320_toString", "Verif.Props.C67_CRC_32_generator", "Verif.Props.C67_CRC_32_generator_any", "Verif.Props.C67_CRC_32_disabled"], "note": "The list of declarations without an initialiser (head of Model/Uninit.lean) was made by reading the code; it is not itself proved to be complete."},
 {"property": "C68", "status": "partial", "theorems": ["Verif.Props.C68_reset", "Verif.Props.C68_addData_partial", "Verif.Props.C68_finalize_again_fails", "Verif.Props.C68_addData_again_fails", "Verif.Props.C68_assertion_fails", "Verif.Props.C68_assertion_exact", "Verif.Props.C68_finalize_returns", "Verif.Props.C68_reserve_lost", "Verif.Props.C68_whole_blocks"], "note": "reset() repairs and what addData() took is proved for all histories and failures (C68_reset, C68_addData_partial; there finalize() has memory), and no call throws while pieces are whole blocks (C68_whole_blocks). Repeating a finalize() or addData() that threw gives a wrong digest, an assertion can be made to fail, and the reserved memory is lost: proved as _fails and C68_reserve_lost."},
 {"property": "C69", "status": "partial", "theorems": ["Verif.Props.C69_posix", "Verif.Props.C69_file_partial", "Verif.Props.C69_stdin_fails", "Verif.Props.C69_stdin_end_fails", "Verif.Props.C69_tuple_fails", "Verif.Props.C69_text_exact", "Verif.Props.C69_md5_stdin"], "note": "Holds on POSIX systems (C69_posix) and on all systems for files with every option but those of TupleHash (C69_file_partial); fails on Windows for the standard input and for files with the options of TupleHash (C69_stdin_fails, C69_stdin_end_fails, C69_tuple_fails). C69_text_exact says which inputs are not changed."},
 {"property": "C70", "status": "partial", "theorems": ["Verif.Props.C70_status", "Verif.Props.C70_ends", "Verif.Props.C70_full_fails", "Verif.Props.C70_wrong_fails", "Verif.Props.C70_whole_partial"], "note": "The status says nothing (C70_status, C70_full_fails, C70_wrong_fails); a line that was cut off is recognised if the name has no line feed (C70_whole_partial)."},
 {"property": "C71", "status": "partial", "theorems": ["Verif.Props.C71_SHA3_224_partial", "Verif.Props.C71_SHA3_256_partial", "Verif.Props.C71_SHA3_384_partial", "Verif.Props.C71_SHA3_512_partial", "Verif.Props.C71_SHAKE_128_partial", "Verif.Props.C71_SHAKE_256_partial", "Verif.Props.C71_lanes_partial", "Verif.Props.C71_equal", "Verif.Props.C71_reach_fails", "Verif.Props.C71_row_fails"], "note": "Where the pointer reaches the whole array no call leaves it, row and column agree with counting, and the digests are those of FIPS 202. By the letter of C++ the pointer reaches one row and every finalize() runs past it (C71_row_fails)."},
 {"property": "C72", "status": "proved", "theorems": ["Verif.Props.C72_SHA1", "Verif.Props.C72_SHA1_beside", "Verif.Props.C72_SHA2_224", "Verif.Props.C72_SHA2_224_beside", "Verif.Props.C72_SHA2_256", "Verif.Props.C72_SHA2_256_beside", "Verif.Props.C72_SHA2_384", "Verif.Props.C72_SHA2_384_beside", "Verif.Props.C72_SHA2_512", "Verif.Props.C72_SHA2_512_beside", "Verif.Props.C72_SHA2_512_224", "Verif.Props.C72_SHA2_512_224_beside", "Verif.Props.C72_SHA2_512_256", "Verif.Props.C72_SHA2_512_256_beside", "Verif.Props.C72_MD4", "Verif.Props.C72_MD4_beside", "Verif.Props.C72_MD5", "Verif.Props.C72_MD5_beside", "Verif.Props.C72_RIPEMD_128", "Verif.Props.C72_RIPEMD_128_beside", "Verif.Props.C72_RIPEMD_160", "Verif.Props.C72_RIPEMD_160_beside", "Verif.Props.C72_RIPEMD_256", "Verif.Props.C72_RIPEMD_256_beside", "Verif.Props.C72_RIPEMD_320", "Verif.Props.C72_RIPEMD_320_beside", "Verif.Props.C72_HAS_160", "Verif.Props.C72_HAS_160_beside", "Verif.Props.C72_SM3", "Verif.Props.C72_SM3_beside", "Verif.Props.C72_Tiger1_192", "Verif.Props.C72_Tiger1_192_beside", "Verif.Props.C72_Tiger2_192", "Verif.Props.C72_Tiger2_192_beside", "Verif.Props.C72_Whirlpool", "Verif.Props.C72_Whirlpool_beside", "Verif.Props.C72_HAS_V_320", "Verif.Props.C72_HAS_V_320_beside"], "note": "2^k messages of one digest out of k collisions; a collision of both classes if k exceeds the bits of the other digest. Whirlpool for messages below 2^125 bytes; SHA-224, SHA-384, SHA-512/t with ==."},
 {"property": "C73", "status": "partial", "theorems": ["Verif.Props.C73_SHA1", "Verif.Props.C73_SHA1_wipes", "Verif.Props.C73_SHA2_224", "Verif.Props.C73_SHA2_224_wipes", "Verif.Props.C73_SHA2_256", "Verif.Props.C73_SHA2_256_wipes", "Verif.Props.C73_SHA2_384", "Verif.Props.C73_SHA2_384_wipes", "Verif.Props.C73_SHA2_512", "Verif.Props.C73_SHA2_512_wipes", "Verif.Props.C73_SHA2_512_224", "Verif.Props.C73_SHA2_512_224_wipes", "Verif.Props.C73_SHA2_512_256", "Verif.Props.C73_SHA2_512_256_wipes", "Verif.Props.C73_MD4", "Verif.Props.C73_MD4_wipes", "Verif.Props.C73_MD5", "Verif.Props.C73_MD5_wipes", "Verif.Props.C73_HAS_160", "Verif.Props.C73_HAS_160_wipes", "Verif.Props.C73_SM3", "Verif.Props.C73_SM3_wipes", "Verif.Props.C73_Whirlpool", "Verif.Props.C73_Whirlpool_wipes", "Verif.Props.C73_RIPEMD_128", "Verif.Props.C73_RIPEMD_128_wipes", "Verif.Props.C73_RIPEMD_160", "Verif.Props.C73_RIPEMD_160_wipes", "Verif.Props.C73_RIPEMD_256", "Verif.Props.C73_RIPEMD_256_wipes", "Verif.Props.C73_RIPEMD_320", "Verif.Props.C73_RIPEMD_320_wipes", "Verif.Props.C73_Tiger", "Verif.Props.C73_Tiger_wipes", "Verif.Props.C73_MD2_wipes", "Verif.Props.C73_MD2", "Verif.Props.C73_Blake1_224_wipes", "Verif.Props.C73_Blake1_224", "Verif.Props.C73_Blake1_256_wipes", "Verif.Props.C73_Blake1_256", "Verif.Props.C73_Blake1_384_wipes", "Verif.Props.C73_Blake1_384", "Verif.Props.C73_Blake1_512_wipes", "Verif.Props.C73_Blake1_512", "Verif.Props.C73_Blake2_wipes", "Verif.Props.C73_Blake2", "Verif.Props.C73_Blake2s_wipes", "Verif.Props.C73_Blake2s", "Verif.Props.C73_SHA3_224", "Verif.Props.C73_SHA3_224_wipes", "Verif.Props.C73_SHA3_256", "Verif.Props.C73_SHA3_256_wipes", "Verif.Props.C73_SHA3_384", "Verif.Props.C73_SHA3_384_wipes", "Verif.Props.C73_SHA3_512", "Verif.Props.C73_SHA3_512_wipes", "Verif.Props.C73_SHAKE_128", "Verif.Props.C73_SHAKE_128_wipes", "Verif.Props.C73_SHAKE_256", "Verif.Props.C73_SHAKE_256_wipes", "Verif.Props.C73_SipHash_wipes", "Verif.Props.C73_SipHash", "Verif.Props.C73_SipHash_key", "Verif.Props.C73_CSHAKE", "Verif.Props.C73_CSHAKE_plain", "Verif.Props.C73_TupleHash", "Verif.Props.C73_HAS_V_320_fails", "Verif.Props.C73_HAS_V_320_left", "Verif.Props.C73_HAS_V_320_model"], "note": "Proved for all classes with a buffer: SHA-1, SHA-2, MD2/4/5, RIPEMD, HAS-160, SM3, Tiger, Whirlpool, BLAKE, BLAKE2, SHA-3, SHAKE, SipHash, cSHAKE, TupleHash. False for HAS_V_320 (C73_HAS_V_320_fails): the memory of its std::vector keeps the bytes. Local variables and memory given back are not in the model; FNV and CRC_32 have no buffer."},
 {"property": "C74", "status": "partial", "theorems": ["Verif.Props.C74_SHA1", "Verif.Props.C74_MD4", "Verif.Props.C74_MD5", "Verif.Props.C74_HAS_160", "Verif.Props.C74_SM3", "Verif.Props.C74_RIPEMD_128", "Verif.Props.C74_RIPEMD_160", "Verif.Props.C74_RIPEMD_256", "Verif.Props.C74_RIPEMD_320", "Verif.Props.C74_SHA2_224", "Verif.Props.C74_SHA2_256", "Verif.Props.C74_SHA2_384", "Verif.Props.C74_SHA2_512", "Verif.Props.C74_SHA2_512_256", "Verif.Props.C74_SHA2_512_224", "Verif.Props.C74_Whirlpool", "Verif.Props.C74_Tiger", "Verif.Props.C74_MD2", "Verif.Props.C74_Blake1_224", "Verif.Props.C74_Blake1_256", "Verif.Props.C74_Blake1_384", "Verif.Props.C74_Blake1_512", "Verif.Props.C74_Blake2", "Verif.Props.C74_Blake2s", "Verif.Props.C74_SHA3_224", "Verif.Props.C74_SHA3_256", "Verif.Props.C74_SHA3_384", "Verif.Props.C74_SHA3_512", "Verif.Props.C74_SHAKE_128", "Verif.Props.C74_SHAKE_256", "Verif.Props.C74_SipHash", "Verif.Props.C74_convert", "Verif.Props.C74_toString", "Verif.Props.C74_toString_fails", "Verif.Props.C74_SipHash_eq_value", "Verif.Props.C74_SHA1_eq_value", "Verif.Props.C74_SHA2_32_eq_value", "Verif.Props.C74_SHA2_64_eq_value", "Verif.Props.C74_Blake1_32_eq_value", "Verif.Props.C74_Blake1_64_eq_value", "Verif.Props.C74_Blake2_eq_value", "Verif.Props.C74_Blake2s_eq_value", "Verif.Props.C74_HAS_160_eq_value", "Verif.Props.C74_MD2_eq_value", "Verif.Props.C74_MD4_eq_value", "Verif.Props.C74_MD5_eq_value", "Verif.Props.C74_SM3_eq_value", "Verif.Props.C74_Tiger_eq_value", "Verif.Props.C74_Whirlpool_eq_value", "Verif.Props.C74_RIPEMD_eq_value", "Verif.Props.C74_SHA3_eq_value", "Verif.Props.C74_eq_steps", "Verif.Props.C74_eq_steps_equal", "Verif.Props.C74_SipHash_eq_fails"], "note": "Proved for addData, finalize and reset of all block hashes and for operator T. Missing because the code does otherwise: operator== (C74_SipHash_eq_fails, C74_eq_steps) and toString (C74_toString_fails, C74_toString)."}
]}
