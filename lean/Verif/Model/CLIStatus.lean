import Verif.Model.CLI

/-!
# program/main.cpp when its output cannot be written

All output goes through `printf`, whose result is not used (main.cpp:108-110, 187, 209), and the program ends with
`return 0` or `exit(0)` (main.cpp:92, 103).
-/

namespace Verif.Model.CLI

/-- Where the standard output goes: everything is taken, or only the first `n` bytes (a full disk, a closed pipe whose
signal is ignored). Not in /repo: the outside world. -/
inductive Sink where
  | all
  | first (n : Nat)

/-- what arrives; not in /repo: the outside world -/
def Sink.taken : Sink → List Byte → List Byte
  | .all, l => l
  | .first n, l => l.take n

/-- `main` (main.cpp:85-104) with its output going to `sink`: that some of it is not taken changes nothing else,
because nothing asks. Simplified: what several calls of `printf` write is taken as one text. -/
def mainInto (sink : Sink) (nb : Nat → Nat) (w : World) (args : List (List Byte)) : Except Fault Outcome := do
  let r ← main nb w args
  return { r with stdout := sink.taken r.stdout }

end Verif.Model.CLI
