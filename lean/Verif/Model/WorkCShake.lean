import Verif.Model.Work
import Verif.Model.CShake

/-! # The calls that cSHAKE makes on the object it owns, for counting -/

namespace Verif.Model.CShake

/-- What the constructor of a customised cSHAKE object hands to `addData` of the `Keccak` object it has made, call by
call (cshake.h:161-185). -/
def prefixCalls (nb : Nat → Nat) (R : Nat) (name customize : List Byte) : Except Fault (List (List Byte)) := do
  let encodedW ← leftEncode nb R
  let encodedName ← leftEncode nb (name.length * 8 % 2 ^ 64)
  let encodedCustomize ← leftEncode nb (customize.length * 8 % 2 ^ 64)
  let length := encodedW.size
  let length := ((length + encodedName.size) % 2 ^ 64 + name.length) % 2 ^ 64
  let length := ((length + encodedCustomize.size) % 2 ^ 64 + customize.length) % 2 ^ 64
  return [encodedW.contents, encodedName.contents, name, encodedCustomize.contents, customize] ++
    List.replicate ((R - length % R) % R) [0]

end Verif.Model.CShake
