import Verif.Spec.Hex

/-!
# What the command-line tool is expected to print
-/

namespace Verif.Spec.CLI

/-- The line for one file: the digest in hexadecimal, two spaces, the name, a line feed. -/
def line (digest file : List Byte) : List Byte :=
  (hex digest).map (fun c => BitVec.ofNat 8 c.toNat) ++ [0x20, 0x20] ++ file ++ [0x0a]

/-- The decimal numeral of a number, in ASCII. -/
def decimal (n : Nat) : List Byte :=
  if n < 10 then [BitVec.ofNat 8 (48 + n)] else decimal (n / 10) ++ [BitVec.ofNat 8 (48 + n % 10)]
termination_by n
decreasing_by omega

/-- The words of a text: the longest parts without spaces, tabs and line feeds. -/
def words (text : List Byte) : List (List Byte) :=
  (text.foldr (fun (b : Byte) (ws : List (List Byte)) =>
    if b = 0x20 ∨ b = 0x09 ∨ b = 0x0a then [] :: ws
    else match ws with
      | w :: ws => (b :: w) :: ws
      | [] => [[b]]) [[]]).filter (· ≠ [])

end Verif.Spec.CLI
