import Verif.Core.World
import Verif.Model.BLAKE
import Verif.Model.BLAKE2
import Verif.Model.CRC32
import Verif.Model.CShake
import Verif.Model.FNV
import Verif.Model.HAS160
import Verif.Model.MD2
import Verif.Model.MD4
import Verif.Model.MD5
import Verif.Model.RIPEMD
import Verif.Model.SHA1
import Verif.Model.SHA2
import Verif.Model.SM3
import Verif.Model.SipHash
import Verif.Model.Tiger
import Verif.Model.Whirlpool

/-!
# program/main.cpp: the command-line tool

Command-line arguments, file names and the text written are byte strings.

Simplifications: opening and reading a stream is described by a `Source` per file name (Core/World.lean), the file
system does not change during the run, and printing does not fail. TupleHash opens files in text mode
(main.cpp:196); on the systems the model covers (POSIX) that reads the same bytes as binary mode.
-/

namespace Verif.Model.CLI

/-- the bytes of a text of ASCII characters; for the string literals of main.cpp:108-136 and 139-159 -/
def ascii (s : String) : List Byte := s.toList.map fun c => BitVec.ofNat 8 c.toNat

/-! ## Input streams -/

/-- A `std::istream`: the bytes that can still be read, and `good()`. main.cpp:173-186, 192-207. -/
structure IStream where
  rest : List Byte
  good : Bool

/-- a newly opened stream: `good()` is false if opening failed (main.cpp:173-177, 192-196) -/
def openStream : Source → IStream
  | .cannotOpen => ⟨[], false⟩
  | .content bytes => ⟨bytes, true⟩
  | .readError bytes => ⟨bytes, true⟩

/-- the choice of the stream (main.cpp:173-177, 192-196) -/
def inStream (w : World) (filename : List Byte) : IStream :=
  if filename = ascii "-" then openStream w.stdin else openStream (w.file filename)

/-- `read(buf, n)` on a stream that is `good()`, with `gcount()` bytes put into `buf` (main.cpp:183-184,
205-206). Running out of input, at the end of the file or at a read error, takes what there is and clears
`good()`. -/
def IStream.read (s : IStream) (n : Nat) : List Byte × IStream :=
  if n ≤ s.rest.length then (s.rest.take n, ⟨s.rest.drop n, s.good⟩) else (s.rest, ⟨[], false⟩)

/-- `bufSize`, `tmpSize` (main.cpp:179, 198) -/
def bufSize : Nat := 1024 * 1024

/-- `while (inStream->good()) { read; use what was read }` (main.cpp:181-185, 203-207) -/
def readLoop {S : Type} (use : S → List Byte → Except Fault S) (s : IStream) (st : S) : Except Fault S :=
  if h : s.good then do
    let st ← use st (s.read bufSize).1
    readLoop use (s.read bufSize).2 st
  else .ok st
termination_by s.rest.length + (if s.good then 1 else 0)
decreasing_by
  all_goals
    unfold IStream.read
    split
    · rename_i hn
      simp only [bufSize] at hn
      simp only [List.length_drop, bufSize]; omega
    · simp [h]

/-! ## The two ways of hashing a stream -/

/-- what the generic lambda `readNPrint` uses of the object it is given (main.cpp:171-188) -/
structure Hasher (O : Type) where
  obj : O
  addData : O → List Byte → Except Fault O
  finalize : O → Except Fault O
  toString : O → Except Fault (List Char)

/-- a default-constructed object of one of the plain classes (the cases of main.cpp:213-669) -/
def ofAPI {O : Type} (A : API O) : Hasher O := ⟨A.fresh, A.addData, A.finalize, A.toString⟩

/-- `printf("%s  %s\n", text, filename)` (main.cpp:187, 209) -/
def printLine (text : List Char) (filename : List Byte) : List Byte :=
  text.map (fun c => BitVec.ofNat 8 c.toNat) ++ ascii "  " ++ filename ++ ascii "\n"

/-- `readNPrint` (main.cpp:171-188); the result is what is printed -/
def readNPrint {O : Type} (hash : Hasher O) (w : World) (filename : List Byte) : Except Fault (List Byte) := do
  let o ← readLoop hash.addData (inStream w filename) hash.obj
  let o ← hash.finalize o
  let text ← hash.toString o
  return printLine text filename

/-- `readAllNPrint` (main.cpp:190-210) -/
def readAllNPrint {R : Nat} [SHA3.RateOK R] (nb : Nat → Nat) (hash : CShake.TupleHash R) (w : World)
    (filename : List Byte) : Except Fault (List Byte) := do
  let buf ← readLoop (fun buf piece => .ok (buf ++ piece)) (inStream w filename) []
  let o ← CShake.nextData nb hash buf
  let o ← CShake.tupleFinalize nb o
  let text ← CShake.tupleToString o
  return printLine text filename

/-! ## std::stoi -/

/-- white space of the C locale, for `std::stoi` (main.cpp:286) -/
def isSpace (b : Byte) : Bool := b = 32 || (9 ≤ b && b ≤ 13)

/-- a decimal digit, for `std::stoi` (main.cpp:286) -/
def isDigit (b : Byte) : Bool := 48 ≤ b && b ≤ 57

/-- the value of a string of digits, for `std::stoi` (main.cpp:286) -/
def digitsValue (l : List Byte) : Nat := l.foldl (fun n b => 10 * n + (b.toNat - 48)) 0

/-- `std::stoi(text)` (main.cpp:286 and the other cases with a length): white space, a sign and as many
digits as there are; what follows is ignored. `none` is `std::invalid_argument`; a value outside `int` is
`std::out_of_range`. -/
def stoi (text : List Byte) : Except Fault (Option Int) :=
  let s := text.dropWhile isSpace
  let negative := s.head? = some 45
  let s := if s.head? = some 45 ∨ s.head? = some 43 then s.drop 1 else s
  let digits := s.takeWhile isDigit
  if digits = [] then .ok none
  else
    let v : Int := if negative then -(digitsValue digits : Int) else digitsValue digits
    if -2 ^ 31 ≤ v ∧ v < 2 ^ 31 then .ok (some v) else .error .outOfRange

/-! ## The cases of `runHash`. `none` is the return value `false`. -/

/-- cases without further arguments, such as main.cpp:215-222 -/
def plain {O : Type} (hash : Hasher O) (w : World) (args : List (List Byte)) : Except Fault (Option (List Byte)) :=
  match args with
  | [_, _, filename] => do return some (← readNPrint hash w filename)
  | _ => .ok none

/-- `Shake_128`, `Shake_256` (main.cpp:516-552) -/
def shake (R : Nat) [SHA3.RateOK R] (w : World) (args : List (List Byte)) : Except Fault (Option (List Byte)) :=
  match args with
  | [_, _, length, filename] => do
    match ← stoi length with
    | none => return none
    | some digestLength =>
      let A ← SHA3.construct R 0x1F digestLength
      return some (← readNPrint (ofAPI A) w filename)
  | _ => .ok none

/-- `Cshake_128`, `Cshake_256` (main.cpp:278-314): the third argument becomes the first
string of the constructor (cshake.h:146), which is the function name. -/
def cshake (nb : Nat → Nat) (R : Nat) [SHA3.RateOK R] (w : World) (args : List (List Byte)) :
    Except Fault (Option (List Byte)) :=
  match args with
  | [_, _, length, text, filename] => do
    match ← stoi length with
    | none => return none
    | some digestLength =>
      let o ← CShake.construct nb R digestLength text []
      return some (← readNPrint ⟨o, CShake.addData, CShake.finalize, CShake.toString⟩ w filename)
  | _ => .ok none

/-- `Tuple_hash_128`, `Tuple_hash_256` (main.cpp:617-653) -/
def tupleHash (nb : Nat → Nat) (R : Nat) [SHA3.RateOK R] (w : World) (args : List (List Byte)) :
    Except Fault (Option (List Byte)) :=
  match args with
  | [_, _, length, text, filename] => do
    match ← stoi length with
    | none => return none
    | some digestLength =>
      let o ← CShake.tupleConstruct nb R digestLength text
      return some (← readAllNPrint nb o w filename)
  | _ => .ok none

/-! ## Names and dispatch -/

/-- `enum class Hash` (main.cpp:55-77) -/
inductive Hash where
  | Blake1_224 | Blake1_256 | Blake1_384 | Blake1_512 | Blake2 | Blake2s | Crc_32 | Cshake_128
  | Cshake_256 | Fnv32_1a | Fnv64_1a | Has160 | Md2 | Md4 | Md5 | Ripemd_128
  | Ripemd_160 | Ripemd_256 | Ripemd_320 | Siphash | Sha1 | Sha2_224 | Sha2_256 | Sha2_384
  | Sha2_512 | Sha2_512_224 | Sha2_512_256 | Sha3_224 | Sha3_256 | Sha3_384 | Sha3_512 | Shake_128
  | Shake_256 | Sm3 | Tiger1_128 | Tiger1_160 | Tiger1_192 | Tiger2_128 | Tiger2_160 | Tiger2_192
  | Tuple_hash_128 | Tuple_hash_256 | Whirlpool | Invalid
  deriving DecidableEq

/-- `static_cast<Hash>(i)`: the enumerators in order (main.cpp:55-77) -/
def enumerators : List Hash := [
  .Blake1_224, .Blake1_256, .Blake1_384, .Blake1_512, .Blake2, .Blake2s,
  .Crc_32, .Cshake_128, .Cshake_256, .Fnv32_1a, .Fnv64_1a, .Has160,
  .Md2, .Md4, .Md5, .Ripemd_128, .Ripemd_160, .Ripemd_256,
  .Ripemd_320, .Siphash, .Sha1, .Sha2_224, .Sha2_256, .Sha2_384,
  .Sha2_512, .Sha2_512_224, .Sha2_512_256, .Sha3_224, .Sha3_256, .Sha3_384,
  .Sha3_512, .Shake_128, .Shake_256, .Sm3, .Tiger1_128, .Tiger1_160,
  .Tiger1_192, .Tiger2_128, .Tiger2_160, .Tiger2_192, .Tuple_hash_128, .Tuple_hash_256,
  .Whirlpool, .Invalid]

/-- `names` (main.cpp:139-159) -/
def names : List String := [
  "-blake1-224", "-blake1-256", "-blake1-384", "-blake1-512", "-blake2", "-blake2s",
  "-crc-32", "-cshake-128", "-cshake-256", "-fnv32_1a", "-fnv64_1a", "-has160",
  "-md2", "-md4", "-md5", "-ripemd-128", "-ripemd-160", "-ripemd-256",
  "-ripemd-320", "-siphash", "-sha1", "-sha2-224", "-sha2-256", "-sha2-384",
  "-sha2-512", "-sha2-512-224", "-sha2-512-256", "-sha3-224", "-sha3-256", "-sha3-384",
  "-sha3-512", "-shake-128", "-shake-256", "-sm3", "-tiger1-128", "-tiger1-160",
  "-tiger1-192", "-tiger2-128", "-tiger2-160", "-tiger2-192", "-tuple-hash-128", "-tuple-hash-256",
  "-whirlpool"]

/-- the search loop of `getHash` from index `i` (main.cpp:161-166) -/
def searchNames (hash : List Byte) : List String → Nat → Hash
  | [], _ => .Invalid
  | name :: rest, i =>
    if hash = ascii name then (enumerators[i]?).getD .Invalid else searchNames hash rest (i + 1)

/-- `getHash` (main.cpp:137-167) -/
def getHash (hash : List Byte) : Hash := searchNames hash names 0

/-- `runHash` (main.cpp:169-670), the switch; the numbers are the lines of the cases -/
def runHash (nb : Nat → Nat) (hash : Hash) (w : World) (args : List (List Byte)) :
    Except Fault (Option (List Byte)) :=
  match hash with
  | .Blake1_224 => plain (ofAPI BLAKE.Blake1_224) w args  -- 215
  | .Blake1_256 => plain (ofAPI BLAKE.Blake1_256) w args  -- 224
  | .Blake1_384 => plain (ofAPI BLAKE.Blake1_384) w args  -- 233
  | .Blake1_512 => plain (ofAPI BLAKE.Blake1_512) w args  -- 242
  | .Blake2 => plain (ofAPI BLAKE2.Blake2) w args  -- 251
  | .Blake2s => plain (ofAPI BLAKE2.Blake2s) w args  -- 260
  | .Crc_32 => plain (ofAPI CRC32.CRC_32) w args  -- 269
  | .Cshake_128 => cshake nb 168 w args  -- 278
  | .Cshake_256 => cshake nb 136 w args  -- 297
  | .Fnv32_1a => plain (ofAPI FNV.FNV32_1a) w args  -- 316
  | .Fnv64_1a => plain (ofAPI FNV.FNV64_1a) w args  -- 325
  | .Has160 => plain (ofAPI HAS160.HAS_160) w args  -- 334
  | .Md2 => plain (ofAPI MD2.MD2) w args  -- 343
  | .Md4 => plain (ofAPI MD4.MD4) w args  -- 352
  | .Md5 => plain (ofAPI MD5.MD5) w args  -- 361
  | .Ripemd_128 => plain (ofAPI RIPEMD.RIPEMD_128) w args  -- 370
  | .Ripemd_160 => plain (ofAPI RIPEMD.RIPEMD_160) w args  -- 379
  | .Ripemd_256 => plain (ofAPI RIPEMD.RIPEMD_256) w args  -- 388
  | .Ripemd_320 => plain (ofAPI RIPEMD.RIPEMD_320) w args  -- 397
  | .Siphash => plain (ofAPI (SipHash.SipHash (Vector.replicate 16 0))) w args  -- 406
  | .Sha1 => plain (ofAPI SHA1.SHA1) w args  -- 417
  | .Sha2_224 => plain (ofAPI SHA2.SHA2_224) w args  -- 426
  | .Sha2_256 => plain (ofAPI SHA2.SHA2_256) w args  -- 435
  | .Sha2_384 => plain (ofAPI SHA2.SHA2_384) w args  -- 444
  | .Sha2_512 => plain (ofAPI SHA2.SHA2_512) w args  -- 453
  | .Sha2_512_224 => plain (ofAPI SHA2.SHA2_512_224) w args  -- 462
  | .Sha2_512_256 => plain (ofAPI SHA2.SHA2_512_256) w args  -- 471
  | .Sha3_224 => plain (ofAPI SHA3.SHA3_224) w args  -- 480
  | .Sha3_256 => plain (ofAPI SHA3.SHA3_256) w args  -- 489
  | .Sha3_384 => plain (ofAPI SHA3.SHA3_384) w args  -- 498
  | .Sha3_512 => plain (ofAPI SHA3.SHA3_512) w args  -- 507
  | .Shake_128 => shake 168 w args  -- 516
  | .Shake_256 => shake 136 w args  -- 535
  | .Sm3 => plain (ofAPI SM3.SM3) w args  -- 554
  | .Tiger1_128 => plain (ofAPI Tiger.Tiger1_128) w args  -- 563
  | .Tiger1_160 => plain (ofAPI Tiger.Tiger1_160) w args  -- 572
  | .Tiger1_192 => plain (ofAPI Tiger.Tiger1_192) w args  -- 581
  | .Tiger2_128 => plain (ofAPI Tiger.Tiger2_128) w args  -- 590
  | .Tiger2_160 => plain (ofAPI Tiger.Tiger2_160) w args  -- 599
  | .Tiger2_192 => plain (ofAPI Tiger.Tiger2_192) w args  -- 608
  | .Tuple_hash_128 => tupleHash nb 168 w args  -- 617
  | .Tuple_hash_256 => tupleHash nb 136 w args  -- 636
  | .Whirlpool => plain (ofAPI Whirlpool.Whirlpool) w args  -- 655
  | .Invalid => .ok none

/-- `printUsage` (main.cpp:106-135) -/
def usage (name : List Byte) : List Byte :=
  ascii "Usage: " ++ name ++ ascii " <HASH> <FILE | - (stdin)>\n" ++
  ascii "  https://github.com/Chocobo1/Hash \n" ++
  ascii "\n" ++
  ascii "Available HASH:\n" ++
  ascii "  -blake1-224\t -blake1-256\t -blake1-384\t -blake1-512\n" ++
  ascii "  -blake2\t -blake2s\n" ++
  ascii "  -crc-32\n" ++
  ascii "  -cshake-128 <Digest length (bytes)> <Customization string>\n" ++
  ascii "  -cshake-256 <Digest length (bytes)> <Customization string>\n" ++
  ascii "  -fnv32_1a\t -fnv64_1a\n" ++
  ascii "  -has160\n" ++
  ascii "  -md2\t\t -md4\t\t -md5\n" ++
  ascii "  -ripemd-128\t -ripemd-160\t -ripemd-256\t -ripemd-320\n" ++
  ascii "  -siphash\n" ++
  ascii "  -sha1\n" ++
  ascii "  -sha2-224\t -sha2-256\t -sha2-384\t -sha2-512\t -sha2-512-224\t -sha2-512-256\n" ++
  ascii "  -sha3-224\t -sha3-256\t -sha3-384\t -sha3-512\n" ++
  ascii "  -shake-128 <Digest length (bytes)>\n" ++
  ascii "  -shake-256 <Digest length (bytes)>\n" ++
  ascii "  -sm3\n" ++
  ascii "  -tiger1-128\t -tiger1-160\t -tiger1-192\n" ++
  ascii "  -tiger2-128\t -tiger2-160\t -tiger2-192\n" ++
  ascii "  -tuple-hash-128 <Digest length (bytes)> <Customization string>\n" ++
  ascii "  -tuple-hash-256 <Digest length (bytes)> <Customization string>\n" ++
  ascii "  -whirlpool\n"

/-- what a run of the program leaves behind (main.cpp:85-104) -/
structure Outcome where
  stdout : List Byte
  status : Nat
  deriving DecidableEq

/-- `main` (main.cpp:85-104), `args` being `argv[0]` to `argv[argc - 1]`. With no argument at all, `argv[0]`
is a null pointer. -/
def main (nb : Nat → Nat) (w : World) (args : List (List Byte)) : Except Fault Outcome :=
  match args with
  | [] => .error .nullDeref
  | [prog] => .ok ⟨usage prog, 0⟩
  | prog :: option :: _ => do
    match ← runHash nb (getHash option) w args with
    | none => return ⟨usage prog, 0⟩
    | some text => return ⟨text, 0⟩

end Verif.Model.CLI
