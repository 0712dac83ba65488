import Verif.Spec.Bytes

/-!
# Hexadecimal text
-/

namespace Verif.Spec

/-- The lower-case hexadecimal digit of a number below 16. -/
def hexDigit (n : Nat) : Char := "0123456789abcdef".toList.getD n '?'

/-- Two digits per byte, high half first. -/
def hex (l : List Byte) : List Char := l.flatMap fun b => [hexDigit (b.toNat / 16), hexDigit (b.toNat % 16)]

end Verif.Spec
