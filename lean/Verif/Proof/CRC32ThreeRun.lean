import Verif.Proof.CRC32Three

/-! The checks of `CRC32Three`, evaluated by the kernel one at a time: every value the register takes is looked at. -/

namespace Verif.Proof.CRC32

set_option maxRecDepth 1000000
set_option Elab.async false

theorem check0 : check 0 = true := by decide +kernel
theorem check1 : check 1 = true := by decide +kernel
theorem check2 : check 2 = true := by decide +kernel
theorem check3 : check 3 = true := by decide +kernel
theorem check4 : check 4 = true := by decide +kernel
theorem check5 : check 5 = true := by decide +kernel
theorem check6 : check 6 = true := by decide +kernel
theorem check7 : check 7 = true := by decide +kernel

theorem trinomials (i j : Nat) (hi : 0 < i) (hij : i < j) (hj : j < 91639) : zn i 1 ^^^ zn j 1 ≠ 1 :=
  no_trinomial (fun c => match c with
    | 0 => check0 | 1 => check1 | 2 => check2 | 3 => check3
    | 4 => check4 | 5 => check5 | 6 => check6 | 7 => check7) i j hi hij hj

end Verif.Proof.CRC32
