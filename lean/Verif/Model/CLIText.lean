import Verif.Model.CLI

/-!
# program/main.cpp where text streams are not binary streams

`readNPrint` opens files in binary mode (main.cpp:177), but it takes the standard input as it is, in text mode, and
`readAllNPrint` opens files in text mode (main.cpp:196). The standard output is in text mode as well. On POSIX systems
this is no difference. On Windows, for which the repository has a build script (program/build_win32.bat), it is.
-/

namespace Verif.Model.CLI

/-- what a system does to the bytes of streams in text mode; main.cpp:175, 187, 194, 196, 209 -/
structure Platform where
  textIn : List Byte → List Byte
  textOut : List Byte → List Byte

/-- POSIX: nothing. main.cpp:175, 196 -/
def posix : Platform := ⟨id, id⟩

/-- reading in text mode on Windows: a carriage return before a line feed is dropped, and the byte 26 (Ctrl-Z) ends the
input. main.cpp:175, 194, 196 -/
def crlfIn : List Byte → List Byte
  | [] => []
  | [b] => if b = 26 then [] else [b]
  | b :: c :: rest =>
    if b = 26 then []
    else if b = 13 ∧ c = 10 then crlfIn (c :: rest)
    else b :: crlfIn (c :: rest)

/-- writing in text mode on Windows: a carriage return is put before every line feed. main.cpp:187, 209 -/
def crlfOut (l : List Byte) : List Byte := l.flatMap fun b => if b = 10 then [13, 10] else [b]

/-- Windows; main.cpp:175, 187, 194, 196, 209 -/
def windows : Platform := ⟨crlfIn, crlfOut⟩

/-- a source read in text mode; main.cpp:175, 194, 196 -/
def sourceText (P : Platform) : Source → Source
  | .cannotOpen => .cannotOpen
  | .content bytes => .content (P.textIn bytes)
  | .readError bytes => .readError (P.textIn bytes)

/-- does the case use `readAllNPrint`? main.cpp:617-653 -/
def usesReadAll : Hash → Bool
  | .Tuple_hash_128 | .Tuple_hash_256 => true
  | _ => false

/-- the world as the streams of the program deliver it: the standard input in text mode, files in text mode only in
`readAllNPrint` (main.cpp:175-177, 194-196) -/
def streams (P : Platform) (hash : Hash) (w : World) : World where
  stdin := sourceText P w.stdin
  file := fun name => if usesReadAll hash then sourceText P (w.file name) else w.file name

/-- `main` (main.cpp:85-104) on a system `P` -/
def mainOn (P : Platform) (nb : Nat → Nat) (w : World) (args : List (List Byte)) : Except Fault Outcome := do
  let hash := match args with
    | _ :: option :: _ => getHash option
    | _ => .Invalid
  let r ← main nb (streams P hash w) args
  return { r with stdout := P.textOut r.stdout }

end Verif.Model.CLI
