import Verif.Proof.CRC32Five

/-! The checks of `CRC32Five`, evaluated by the kernel one at a time: every sum is looked at. -/

namespace Verif.Proof.CRC32
open Spec Spec.CRC32

set_option maxRecDepth 1000000
set_option Elab.async false

theorem five0 : fiveOk 0 = true := by decide +kernel
theorem five1 : fiveOk 1 = true := by decide +kernel
theorem five2 : fiveOk 2 = true := by decide +kernel
theorem five3 : fiveOk 3 = true := by decide +kernel
theorem five4 : fiveOk 4 = true := by decide +kernel
theorem five5 : fiveOk 5 = true := by decide +kernel
theorem five6 : fiveOk 6 = true := by decide +kernel
theorem five7 : fiveOk 7 = true := by decide +kernel

theorem quinquenomials (i j k l : Nat) (hi : 0 < i) (hij : i < j) (hj : j < 300) (hk : 0 < k) (hkl : k < l) (hl : l < 300) :
    (zn j 1 ^^^ zn i 1) ^^^ (zn l 1 ^^^ zn k 1) ≠ 1 :=
  no_quinquenomial (fun c => match c with
    | 0 => five0 | 1 => five1 | 2 => five2 | 3 => five3
    | 4 => five4 | 5 => five5 | 6 => five6 | 7 => five7) i j k l hi hij hj hk hkl hl

end Verif.Proof.CRC32
