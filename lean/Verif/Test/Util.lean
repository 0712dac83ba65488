import Verif.Core.API

/-! Helpers for the `#guard` test vectors (tests of the transcription, not proofs). -/

namespace Verif.Test

def ofStr (s : String) : List Byte := s.toUTF8.toList.map fun b => BitVec.ofNat 8 b.toNat

def hexDigit (n : Nat) : Char := if n < 10 then Char.ofNat (n + 48) else Char.ofNat (n - 10 + 97)

def hexStr (l : List Byte) : String :=
  String.ofList (l.flatMap fun b => [hexDigit (b.toNat / 16), hexDigit (b.toNat % 16)])

def hexVal (c : Char) : Nat := if c.toNat < 58 then c.toNat - 48 else c.toNat - 87

def hxAux : List Char → List Byte
  | a :: b :: l => BitVec.ofNat 8 (16 * hexVal a + hexVal b) :: hxAux l
  | _ => []

/-- bytes from a lower-case hex string -/
def hx (s : String) : List Byte := hxAux s.toList

/-- hex digest of the pieces -/
def dig {O : Type} (A : API O) (pieces : List (List Byte)) : String :=
  match A.digest pieces with
  | .ok d => hexStr d
  | .error f => "fault " ++ reprStr f

end Verif.Test
