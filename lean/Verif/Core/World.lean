import Verif.Core.Basic

/-!
# What the command-line tool reads from
-/

namespace Verif

/-- What a file name or the standard input stands for: it cannot be opened, or it can be read to its end,
or reading it fails after some bytes. main.cpp:173-186, 192-207. -/
inductive Source where
  | cannotOpen
  | content (bytes : List Byte)
  | readError (bytes : List Byte)

/-- the bytes that can be read; not in /repo -/
def Source.delivered : Source → List Byte
  | .cannotOpen => []
  | .content bytes => bytes
  | .readError bytes => bytes

/-- the outside world; not in /repo -/
structure World where
  file : List Byte → Source
  stdin : Source

/-- What an argument stands for: "-" is the standard input, everything else a file name. main.cpp:192-207. -/
def World.source (w : World) (argument : List Byte) : Source :=
  if argument = [0x2d] then w.stdin else w.file argument

end Verif
