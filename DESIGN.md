# Formal model of Chocobo1/Hash — design

Everything is in `lean/Verif`. `properties.jsonl` has the English properties, `MANIFEST.json` the theorem names
and status of each, `seeded/` the wrong programs the theorems were tried on.

## 1. Layout

| part | content |
|---|---|
| `Core/` | what the headers share: bytes and words, the helpers `ror`, `rotl`, `rotr`, `Loader`, `Buffer<T,N>`, `Uint128`, the `addData` text, call histories (`API`, `Op`, `Legal`, `message`), readouts (`Render`), `operator==`, overloads, stores of several objects, files (`World`) |
| `Model/` | one file per header, a transcription function by function with file and line numbers; `CLI` is `program/main.cpp` |
| `Spec/` | one file per standard, written from the standard; imports nothing from `Model/` |
| `Proof/` | lemmas linking `Model/` and `Spec/` |
| `Props/` | the property theorems `Cxx_*`, each with an `example` meeting its hypotheses |
| `Test/` | `#guard` checks with the repository's own test vectors: tests of the transcription, not proofs |

How to read a theorem: `A.Computes f` says that from a fresh object every legal history (any number of `addData`
calls of any sizes, `finalize`, `reset`, in the order the header's comments allow) runs without a fault, and that
`toArray` afterwards is `f` of the concatenated bytes added since the last `reset`. `f` is a function of `Spec/`.

Files named in a header line "Generated by tools/…" are committed; the scripts only turn long tables and
straight-line call lists of a header into Lean text, or one theorem statement into the same statement for each class.

## 2. How C++ is represented

* `uint8_t/uint32_t/uint64_t` are `BitVec 8/32/64`; arithmetic wraps as in C++.
* The *length counters* of the classes are `BitVec 64` (or the pair `Uint128`), so wrap-around is modelled.
  Sizes of spans are `Nat`; a span is the list of its bytes, except for C47, where it is an address and a size; one piece passed to `addData` has fewer than 2^64 bytes, because its size is a
  `size_t`. A message built from many pieces has no such limit.
* A member function that changes `*this` returns the new object. A function that can hit undefined behaviour, a
  failing `assert` or an exception returns `Except Fault _`; `Fault` says which. The model is the debug build
  (assertions and the `.at` check of `Buffer::fill` on). Model/Release.lean has the release build; C48 says that it
  takes the same steps.
* Fixed-size arrays are `Vector`s accessed with bounds proofs, so an access out of range does not type-check;
  accesses whose index depends on run-time sizes (buffer, result arrays) are checked and return a fault.
* `Span<const Byte>` is `List Byte`.
* Loops over a counter are recursions on the number of rounds left, with the loop's own body.
* Unrolled calls of the block functions are lists of calls taken from the header by script, run one after the other.

Simplifications, each also stated at its definition:

* Repeated header text is modelled once. `tools/same_text.py` prints which headers have the same text of `Buffer`,
  `addData`, `toString`, `operator T`, `operator==`, … after removing white space, comments and class names.
* Keccak's lane array is flattened to 25 words; the index is the code's own. `Model/KeccakRows.lean` has the five rows of
  five lanes; C71 proves that the two do the same.
* `BLAKE2`'s `addData` calls itself at most once more; the model has that second call written out.
* `SipHash`'s constructor takes a key of any length and faults unless it has 16 bytes (the code asserts).
* The call `lround(log2(v) / 8 + 0.5)` in `leftEncode`/`rightEncode` is a parameter `nb : Nat → Nat`. Theorems
  assume `ExactLog nb` (right for multiples of 8 below 2^56 - 2048). `Props/FloatLog.lean` proves `ExactLog` of
  the code's expression with doubles as rounded real numbers, for every rounding to nearest and every `log2` with
  an error of at most one unit in the last place that is exact on powers of two.
* The command-line tool: arguments, file names and output are byte strings; a file is a `Source` (content, whether
  it can be opened, how many bytes each read returns, whether a read fails); text mode is POSIX text mode; printing does not fail.
* Objects in several variables: a store from variable numbers to objects; for cSHAKE a heap of owned objects with
  explicit allocation, copying, moving and freeing (`Model/CShakeHeap.lean`).

## 3. Property by property

| id | modelled and proved how |
|---|---|
| C01–C03, C37 | refinement relation: after absorbing `m`, the chaining part is the fold of the block function over the whole blocks of `m` and the buffer holds the rest; induction over the history; per class a corollary. Negations with witnesses where false |
| C04, C05 | the hexadecimal loop and the conversion loop against `Spec/Hex.lean` and big-endian numbers |
| C06 | `operator==` of each class on states; equal states give equal digests, converse by injectivity of serialisation, blindness for buffered data shown |
| C07–C09 | FIPS 180-4 written as recursions; schedules by strong induction, unrolled rounds by a register-rotation argument |
| C10–C15 | step tables of the standards; straight-line programs as call lists; register rotation; RIPEMD's two lines shown independent |
| C16 | Tiger; S-boxes generated as in the reference generator, run in the kernel; short variants fault: negation with witness |
| C17 | mini-boxes, circulant matrix over GF(2^8), all 2048 table entries |
| C18 | BLAKE with its counter; what the code computes on every message, where that is BLAKE and where not |
| C19 | RFC 7693; the last block is the only flagged one |
| C20, C26, C31 | FIPS 202 on bit strings: theta, rho, pi, chi, iota, sponge; prefix lemma; inverse permutation |
| C21, C22, C29 | SP 800-185 encodings; injectivity; the floating-point byte count |
| C23 | SipHash-c-d for all c, d |
| C24, C32, C33, C41 | CRC register as linear map; slicing by linearity; remainder of polynomial division; order of x |
| C25, C34 | FNV recurrence; multiplication by an odd constant is invertible |
| C27, C28 | padding injective; Merkle–Damgård argument; BLAKE/BLAKE2 with their counters |
| C30 | overloads as functions from memory to bytes |
| C35, C36 | the read loop and argument dispatch for every option |
| C38 | `Uint128` against `Nat` modulo 2^128 |
| C39 | programs over several objects: each object behaves as its own history says; cSHAKE with pointers: no dangling pointer, no double free, one owner, no leak; SHA-3/SHAKE with moves and assignments between digest lengths (`Model/KeccakStore.lean`); TupleHash (`Model/TupleStore.lean`); `std::swap` is a program of moves |
| C40 | constants from pi, sines and roots as real numbers, LFSRs and table generators |
| C42 | invariants that survive calls in any order |
| C43 | the comparison compares a component of the object and digest and `std::hash` are functions of it; for Keccak by the shape of finalised objects |
| C44 | injectivity of the padding, induction on the absorbed blocks, invertibility of the permutation (C31); TupleHash through the cSHAKE object it keeps and the unambiguity of its encodings (C29) |
| C45 | the fold of the compression function over blocks splits at block boundaries; the collisions of MD4, MD5 and SHA-1 are evaluated by the kernel; MD2: the running byte of the checksum is its last byte, so the checksum is the state of the checksum |
| C46 | the register step is a bijection and linear over XOR, so four bytes reach every register value (`zn_surj`, `fold_surj`); the residue is one kernel evaluation after linearity removes the message. |
| C47 | a second model of `addData` in which spans and iterators are addresses and every byte is read from a memory (Core/Memory.lean, Model/Spans.lean); it equals the list model whenever the caller's bytes are readable, by induction over the iterator loops, then over histories |
| C48 | a second model without the check and the assertions (Model/Release.lean); whatever a debug call returns the release call returns (a relation kept by every `bind`), and C42 says that the debug calls do return |
| C49 | statement lists copied by a script (Model/HASVCalls.lean); both lists equal, by kernel computation, a concatenation of generated segments; a segment advances one line of the specification (invariant over the twenty steps), and the two concatenations give the same pair of lines |
| C50 | every allocation of `finalize()`, of the constructors, of the copy assignments and of the functions that read may fail, as an oracle decides (Core/Alloc.lean, Model/Alloc.lean, Model/AllocRead.lean); the caller catches the exception and goes on. Invariants over histories with failures; for cSHAKE the ownership invariant of C39 over programs with failures. That a second `finalize()` gives the right digest is false (finding 15); what it gives instead is proved |
| C51 | a call is a tree of single memory accesses (Core/Threads.lean), the machine lets any thread make the next one; how a block is read is left open (`Reads`), with md5.h's fourfold reading as an instance. The tree follows the pointer text of C47 wherever that succeeds; an invariant over schedules gives the rest, and `C51_many` composes any number of threads. Memory is sequentially consistent and races are excluded by hypothesis (`C51_disturbed_fails` shows why) |
| C52 | every function that calculates with `size_t` is repeated in Model/Machine.lean with `m`-bit arithmetic that wraps; a relation between the two classes (`Twin`: on every object whose buffer fits, both do the same) is shown per family and lifted to all histories. For cSHAKE and TupleHash the widths agree below 2^(m-3) bytes per string; what happens above is computed (`C52_TupleHash_actual`) and gives the two `_fails` theorems. `int` is assumed to have 32 bits on every machine |
| C53 | the accesses of a thread of `Core/Threads.lean` without the bytes (`Act.trace`); two runs in memories of the same layout are compared step by step (Proof/Access.lean: `Agree` of two actions, `Twin` of two classes), which shows that no branch of `addData`, `addDataImpl`, `Buffer::fill` and `finalize` depends on data. For the four headers that index constant tables with message bytes the block functions are written a second time over a monad of table reads (Model/Lookups.lean), and the reads determine the blocks (`_tables_fails`) |
| C54 | by C24 and linearity a difference is detected iff the register, fed with it, is not zero; three bits go unnoticed iff two of the values x^i, x^j (0 < i < j) of the register differ in one bit. That none of the first 91638 do is checked by the kernel over all of them: the sequence is generated and sorted (merge sort, proved to permute) in eight parts |
| C55 | each class is modelled a second time with a number in the chaining state that every run of the block function increases (Model/Work.lean); any history, legal or not, leaves the same object or fault in both (`SameBut`, by naturality of the shared code in the state); the number after a legal history is then part of the same refinement argument as the digest; cSHAKE and TupleHash are shown to do to their `Keccak` object exactly the calls of the constructor (`prefixCalls`, Model/WorkCShake.lean) and those of the history |
| C56 | the steps of the sponge, of SipHash, FNV and CRC-32 are injective in the state (C31, C34; SipRound is inverted word by word), so a common continuation can be cancelled from the end; one block xored into equal states is cancelled the same way; injectivity of the padding (C27, C44) gives the case of an incomplete last block |
| C57 | two objects are compared as values of the model's structures, member by member; the refinement relation fixes everything except the unused bytes of the buffer, and an invariant says that these are zero (`Buffer::clear` zeroes, `fill` writes from the end index on); the state is then a function of the message. With `==` the counters are functions of the length and the buffer holds the common rest |
| C58 | the text at the level of pointers (C47) is written a second time with an unchecked span and pointers as iterators; wherever the checked text succeeds the unchecked one is shown to return the same, call by call, and C47 says where the checked one succeeds |
| C59 | the representations of integers in both byte orders are added to the memory of C30; injectivity element by element; the negative parts are concrete memories and digests evaluated by the kernel |
| C60 | the invariant of C42 bounds the buffers; for the vectors of sha3.h the calls are written a second time with a capacity and the largest number of bytes allocated so far, for every growth policy up to doubling; the bounds are an invariant of calls in any order, reuse is an invariant of legal calls; the tool by the pieces of C35 |
| C61 | the block functions written a second time in a monad that logs operations, shift amounts and array elements (`Core/Ops.lean`, `Model/Ops.lean`, `Model/OpsTables.lean`, `Model/OpsCShake.lean`); proved: same value as the first model, log independent of state and block, and by comparing two runs of the class step by step, log of an object a function of the calls and lengths (for cSHAKE and TupleHash also of the lengths of name and customization). For the four classes with tables the log without the indices of the lookups, and a witness that the indices differ |
| C62 | `PrefixFree`, `Iterates` (`Core/PrefixFree.lean`) of the inputs of C28; BLAKE2 by the final flag, `Blake1_224` by comparing counters, for all lengths; `C62_BLAKE_spec` for the specified counters. False for `Blake1_256`, `Blake1_384`, `Blake1_512` (`_fails`, every length 4096 mod 8192); `_exact` says for which pairs; `_extension` computes the digest of the longer message from the digest of the shorter one |
| C63 | the shifts in the logs of C61 carry the width of the word; `DefinedSteps` for every block function, by rules that follow the structure of the definitions (`Proof/OpsDefined.lean`), and an invariant of the classes with a log (`Proof/OpsDefinedRun.lean`). The shifts outside the logs are not covered: the stores of the length field, of the digest and `operator T` shift by constants smaller than the width that the model writes out, and `leftEncode`/`rightEncode` shift by `8 * (n - 1)`, which is 64 if `n` is computed as 9: that needs an argument next to 2^64, a string of nearly 2^61 bytes |
| C64 | every case of `runHash` prints `line d file` or nothing, by cases on the option; hexadecimal digits contain no space, no line feed and no `U`, so the line splits in one way; induction over the lines; the forged name is written out for all names and digests |
| C65 | as C54. Four bits go unnoticed iff x^e (x^a + 1) = x^c + 1 for the distances, that is, iff e + L(a) = L(c) for the discrete logarithms L(d) of x^d + 1. The logarithms for odd d below 3006 are a table (tools/gen_crclogs.py, not trusted): the kernel verifies each (`oddOk`), doubles them for even d, sorts all 3005 and compares the neighbours (`fourOk`). For five bits the kernel sorts all 44551 sums of two of the first 299 values (`fiveOk`) |
| C66 | each step is a permutation of a finite set, so its inverse is a repetition of the step (Mathlib: every point of an injection of a finite set is periodic); with the inverse, an octet can be exclusive-ored into the low byte alone, and 256 y leads to 256 (y + u), where 256 u is the prime without its low byte; u is odd, so every multiple of 256 is reached |
| C68 | the class is modelled again with a `std::vector` of bytes and a capacity (`Model/HASVVector.lean`), and for every call the allocations that fail; a simulation between this and the class with a fixed buffer: an `addData` that throws has done what the other does with a prefix. The three failures are computed by the kernel from the model |
| C69 | the sources as text streams deliver them are a parameter (`Model/CLIText.lean`); the run depends on the world only through the stream it opens; for Windows the function on contents is written down, and the inputs it leaves alone are characterised by induction |
| C70 | `main` with an output that takes any number of bytes; the text of C64 and its prefixes |
| C71 | sha3.h with the rows of lanes and a pointer that reaches the whole array or one row; simulation of the model with 25 lanes |
| C72 | consequence of C45: induction on the number of pairs, then more messages than digests of the other class; that collisions exist is proved in the same way |
| C73 | the invariant of C57, that the bytes of the buffer that are not in use are zero, with the refinement that says which are in use; `finalize()` and `reset()` are read off the model. HAS_V_320 is modelled once more with the memory of its vector (`Model/HASVRemains.lean`), which does the same as the model of C68 |
| C74 | `addData`, `finalize`, the buffer, `operator T`, `toString` and `operator==` written a second time in a monad that logs conditions, elements of the buffer, bytes of the caller and what goes to `addDataImpl` (`Core/Around.lean`, `Model/Around.lean`); proved: same value as the first model, and two runs side by side have the same log. The exact logs of `toString` and the length of that of `operator==` say what can be seen |
| C67 | the functions that use such variables are modelled again with `none` for an unassigned element (`Model/Uninit.lean`, which lists all such declarations); the known part of a table grows from 16 to 20 elements with the first extension, after which no `none` is left. Reading `none` makes the whole result `none` |

None of the properties is outside the model. Later properties are listed in `properties.jsonl` and `MANIFEST.json` in the same way.

## 4. What the code gets wrong

Each is a theorem about the model with a concrete witness, beside a `_partial` theorem saying what holds and,
where useful, an `_actual` theorem saying what happens instead.

1. BLAKE-224/256/384/512: wrong digest when the message length is 56..63 mod 64 (112..127 mod 128): the counter of the
   last blocks is not what the specification says (`C18_*_fails`, `C18_*_actual`).
2. Tiger 128- and 160-bit classes: `toArray` writes 24 bytes into 16 or 20 (`C16_short_overrun`).
3. FNV-0: `reset()` does nothing (`C03_FNV32_0_fails`, `C42_FNV0_reset_fails`, `C57_FNV32_0_fails`).
4. Customised cSHAKE and TupleHash: `reset()` drops name and customization (`C03_CSHAKE_128_fails`).
5. cSHAKE copy assignment between a customised and a plain object dereferences a null pointer (`C39_CSHAKE_assign_fails`). So does copy assignment to a moved-from cSHAKE or TupleHash object, `T b = std::move(a); a = c;` (`C39_CSHAKE_assign_moved_fails`, `C39_TupleHash_assign_moved_fails`).
6. `leftEncode`/`rightEncode`: overrun from bit length 2^56 on, wrong count at 2^56 - 8 (`C29_overrun`, `C29_float_log_wrong`).
7. TupleHash with 2^28 output bytes or more: signed overflow (`C22_signed_overflow`).
8. `==` on SHAKE/cSHAKE ignores the requested length (`C06_*_lengths_fails`); before `finalize` it ignores buffered data (`C06_*_blind`).
9. `toString` of an empty SHAKE/cSHAKE digest takes `front()` of an empty string (`C04_SHAKE_*_zero_fails`).
10. README's `addData("hello")` hashes the terminating NUL too (`C30_README_fails`).
11. The tool: `-cshake-*` pass the customization as function name; lengths above `int` and negative ones end in an
    uncaught exception; an unreadable file is hashed as if it ended there; trailing garbage in a length is accepted (`C36_*`, `C35_unreadable_fails`).
12. Silent misuse: SHA-3 ignores data added after `finalize`; a second `finalize` changes a block hash's digest and undoes a CRC's (`C42_*`).
13. `==` and `std::hash` disagree for SHA-3 objects that are not finalised and for SHAKE objects with different requested lengths (`C43_SHA3_256_fails`, `C43_SHAKE_128_fails`).
14. `HAS_V_320` (in `src/unfinished`) does not give the digests its own test requires, and neither does the variant disabled by `#if 0` (`C49_vectors_fails`, `C49_vectors_disabled_fails`).
15. `Keccak::finalize` (SHA-3, SHAKE, cSHAKE, TupleHash) pads and absorbs before it allocates. If an allocation throws and the caller calls `finalize()` again, it silently gets the digest of the padded message, and for long SHAKE digests a mixture of two digests (`C50_SHA3_*_retry_actual`, `C50_SHAKE_*_retry_actual`, `C50_SHA3_256_retry_fails`). A copy assignment that throws leaves the target with the digest length and the buffer of the source but its own state (`C50_SHAKE_128_assign_fails`). `operator T()` and `std::hash` of these classes are `noexcept` but copy a vector: a failing allocation there ends the program (`C50_SHA3_convert_fails`, `C50_CSHAKE_reads`); the other classes' conversions do not allocate (`C50_toArray_reads`). A `TupleHash::finalize` that is repeated also hashes the encoded length twice (`C50_TupleHash_retry_actual`).
16. On machines with a 32-bit `size_t`, `str.size() * 8` in `CShake`'s constructor and `inData.size() * 8` in `TupleHash` wrap for strings of 2^29 bytes and more. Two different tuples then have the same TupleHash digest (`C52_TupleHash_32bit_fails`), and a cSHAKE customisation of 2^29 zero bytes separates nothing (`C52_CSHAKE_32bit_fails`).
17. crc_32.h, md2.h, tiger.h and whirlpool.h read constant tables at indices computed from message bytes. The list of the elements read (indices, not values) determines the message: `C53_CRC_32_tables_fails`, `C53_MD2_tables_fails`, `C53_Tiger_tables_fails`, `C53_Whirlpool_tables_fails`. A process that shares the cache can learn about secret data hashed with these classes. The other classes access the caller's memory in an order that depends on lengths only and have no table indexed with data: C61. `C61_CRC_32_fails` .. `C61_Whirlpool_fails` give messages of one length with different indices.
18. The templates `addData(const T (&)[N])` and `addData(Span<T>)` accept every type `T` and hash its bytes: digests of integer arrays depend on the byte order of the machine (`C59_portable_fails`), and padding of structures is hashed (`C59_padding_fails`).
19. The options `-tuple-hash-128` and `-tuple-hash-256` of the tool read the whole file into memory (`C60_tool_tuple_actual`); all others read pieces of 1 MiB.
20. Because of item 1's zero counter in the last but one block, `Blake1_256` and `Blake1_512` admit length extension, which BLAKE excludes: for a message of n bytes, n = 4096 mod 8192, the digest of the message followed by its padding without the last two bytes (80 00) is one compression of the digest (`C62_Blake1_256_extension`, `C62_Blake1_512_extension`). Authenticating with `Blake1_256(key ++ text)` is open to forgery at these lengths.
21. The tool prints file names as they are. A name with a line feed makes the line of one file look like the lines of two, so a list of checksums can name files and digests that were never computed (`C64_forged_fails`).
22. `HAS_V_320` reserves memory in its constructor, but `m_buffer = {first, last}` replaces the vector and gives that memory back, so later calls allocate and may throw (`C68_reserve_lost`). A `finalize()` that threw and is called again gives a wrong digest, because the size was added to the counter before (`C68_finalize_again_fails`); an `addData()` that threw may have used up whole blocks, and repeating it gives the digest of another message (`C68_addData_again_fails`); two calls of `finalize()` that threw followed by `addData()` fail the assertion in `addDataImpl` (`C68_assertion_fails`), unless the piece happens to fill up a block (`C68_assertion_exact`; `finalize()` itself never fails it, `C68_finalize_returns`). `reset()` makes it good (`C68_reset`).
23. On Windows the tool hashes the standard input, and with `-tuple-hash-128`/`-tuple-hash-256` files as well, as text: inputs that differ in carriage returns before line feeds, or after a byte 26, get the same digest, and digests of such inputs differ from those on other systems (`C69_stdin_fails`, `C69_stdin_end_fails`, `C69_tuple_fails`).
24. The status of the tool is 0 in every run that ends: after the usage text, for a missing file (whose digest is that of the empty string), and when the output cannot be written (`C70_status`, `C70_full_fails`, `C70_wrong_fails`).
25. `addDataImpl()` and `stateToVector()` of SHA-3 cast the array of rows to `uint64_t *` and run through all 25 lanes (sha3.h:477-478, 588). By the C++ standard such a pointer does not reach past the first row, so every `finalize()` is undefined by the letter (`C71_row_fails`, `C71_reach_fails`); where the pointer reaches the whole array nothing is wrong (`C71_lanes_partial`, `C71_SHA3_256_partial`, …).
26. `HAS_V_320` empties its `std::vector` with `clear()`, which leaves the bytes in memory: a message of less than a block, given at once, is still there after `finalize()` and `reset()` (`C73_HAS_V_320_fails`). All other classes overwrite their buffer with zeros (`C73_SHA2_256`, `C73_SHA2_256_wipes`, …). Copies in local variables and in memory that was given back are not looked at; a SipHash object keeps its key (`C73_SipHash_key`).
27. `operator==` compares word by word and returns at the first difference, so its running time tells how many leading words agree (`C74_eq_steps`, `C74_SipHash_eq_fails`). Whoever compares message authentication codes with it, for example SipHash objects or `toArray()` results, gives an attacker that information. `toString()` has a condition for each half of a byte (`C74_toString`, `C74_toString_fails`). Nothing else outside the block functions depends on the data.

## 5. Trusted base

* Lean 4.33.0's kernel. Axioms used by the theorems: `propext`, `Classical.choice`, `Quot.sound` (many use fewer). No
  axiom of our own, no `sorry`, `native_decide` or `bv_decide`. Finite tables are compared with `decide +kernel`,
  over the whole table, which the kernel evaluates.
* Mathlib modules (real analysis in `FloatLog`, `Pi`, `Sin`, `Roots`; a few tactics) are checked by the same kernel.
* The transcription: that `Model/` says what the headers say is checked only by reading, by line references, by
  scripts that copy tables and call lists from the header text, and by the `#guard` vectors.
* The specifications: that `Spec/` says what the standards say, again by reading and by vectors. `C40` derives the
  constants for which a standard gives a rule. SM3's and BLAKE's permutations, rotation counts, word orders and
  Tiger's initial value have no rule and are transcribed twice.

Modelled: all headers of `/repo/src`, `src/program/main.cpp`, the class in `src/unfinished` (C49, C67, C68, C73; not its `main`; with a fixed buffer in
`Model/HASV.lean`, with its `std::vector` in `Model/HASVVector.lean`, and with the memory of the vector in
`Model/HASVRemains.lean`).
Not modelled: the compiler and the machine, `constexpr` evaluation, spans outside C47, C53 and C58 (elsewhere a span is the
list of bytes it denotes), iostreams beyond the `Source` description, timing and side channels beyond C53, C61 and C74 (in C61 local scalar
variables cost nothing, and a branch with the same operations on both sides would not be seen; the arithmetic on the length counters
and `toArray()`, loops with constant bounds and no condition, are in neither log; C74 leaves out CRC_32 and FNV, which have no buffer,
cSHAKE and TupleHash, which call Keccak, and the class in `src/unfinished`),
threads beyond C51 (weak memory orders, two threads on one object; no header has shared state), the build files and the tests.

## 6. Wrong programs

`seeded/mutants.py` lists edits of the model in the way of realistic bugs, each with the claim it breaks. `seeded/run.py`
applies them one at a time in a scratch copy, rebuilds and records which theorems fail. `seeded/LOG.jsonl` has one
line per attempt. A surviving edit means a theorem was too weak; the log says which one was tightened.
