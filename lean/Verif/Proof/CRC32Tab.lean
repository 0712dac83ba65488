import Verif.Model.CRC32Table
import Verif.Proof.CRC32Lin

/-!
# Every entry of the sixteen tables is what the generator produces
-/

namespace Verif.Proof.CRC32
open Model.CRC32

theorem get_of_list {u v : Vector W32 256} (f : W32 → W32) (h : v.toList = u.toList.map f) (i : Fin 256) :
    v[i] = f u[i] := by
  have := congrArg (fun l => l[i.val]?) h
  simpa using this

set_option maxRecDepth 100000 in
theorem lut0_list : lut0.toList = (List.range 256).map fun i => zn 8 (BitVec.ofNat 32 i) := by decide +kernel

theorem lut0_eq (i : Fin 256) : lut0[i] = zn 8 (BitVec.ofNat 32 i.val) := by
  have := congrArg (fun l => l[i.val]?) lut0_list
  simpa using this

set_option maxRecDepth 100000 in
theorem lut1_list : lut1.toList = lut0.toList.map (zn 8) := by decide +kernel
theorem lut1_eq (i : Fin 256) : lut1[i] = zn 16 (BitVec.ofNat 32 i.val) := by
  rw [get_of_list _ lut1_list, lut0_eq]; exact (zn_add 8 8 _).symm

set_option maxRecDepth 100000 in
theorem lut2_list : lut2.toList = lut1.toList.map (zn 8) := by decide +kernel
theorem lut2_eq (i : Fin 256) : lut2[i] = zn 24 (BitVec.ofNat 32 i.val) := by
  rw [get_of_list _ lut2_list, lut1_eq]; exact (zn_add 16 8 _).symm

set_option maxRecDepth 100000 in
theorem lut3_list : lut3.toList = lut2.toList.map (zn 8) := by decide +kernel
theorem lut3_eq (i : Fin 256) : lut3[i] = zn 32 (BitVec.ofNat 32 i.val) := by
  rw [get_of_list _ lut3_list, lut2_eq]; exact (zn_add 24 8 _).symm

set_option maxRecDepth 100000 in
theorem lut4_list : lut4.toList = lut3.toList.map (zn 8) := by decide +kernel
theorem lut4_eq (i : Fin 256) : lut4[i] = zn 40 (BitVec.ofNat 32 i.val) := by
  rw [get_of_list _ lut4_list, lut3_eq]; exact (zn_add 32 8 _).symm

set_option maxRecDepth 100000 in
theorem lut5_list : lut5.toList = lut4.toList.map (zn 8) := by decide +kernel
theorem lut5_eq (i : Fin 256) : lut5[i] = zn 48 (BitVec.ofNat 32 i.val) := by
  rw [get_of_list _ lut5_list, lut4_eq]; exact (zn_add 40 8 _).symm

set_option maxRecDepth 100000 in
theorem lut6_list : lut6.toList = lut5.toList.map (zn 8) := by decide +kernel
theorem lut6_eq (i : Fin 256) : lut6[i] = zn 56 (BitVec.ofNat 32 i.val) := by
  rw [get_of_list _ lut6_list, lut5_eq]; exact (zn_add 48 8 _).symm

set_option maxRecDepth 100000 in
theorem lut7_list : lut7.toList = lut6.toList.map (zn 8) := by decide +kernel
theorem lut7_eq (i : Fin 256) : lut7[i] = zn 64 (BitVec.ofNat 32 i.val) := by
  rw [get_of_list _ lut7_list, lut6_eq]; exact (zn_add 56 8 _).symm

set_option maxRecDepth 100000 in
theorem lut8_list : lut8.toList = lut7.toList.map (zn 8) := by decide +kernel
theorem lut8_eq (i : Fin 256) : lut8[i] = zn 72 (BitVec.ofNat 32 i.val) := by
  rw [get_of_list _ lut8_list, lut7_eq]; exact (zn_add 64 8 _).symm

set_option maxRecDepth 100000 in
theorem lut9_list : lut9.toList = lut8.toList.map (zn 8) := by decide +kernel
theorem lut9_eq (i : Fin 256) : lut9[i] = zn 80 (BitVec.ofNat 32 i.val) := by
  rw [get_of_list _ lut9_list, lut8_eq]; exact (zn_add 72 8 _).symm

set_option maxRecDepth 100000 in
theorem lut10_list : lut10.toList = lut9.toList.map (zn 8) := by decide +kernel
theorem lut10_eq (i : Fin 256) : lut10[i] = zn 88 (BitVec.ofNat 32 i.val) := by
  rw [get_of_list _ lut10_list, lut9_eq]; exact (zn_add 80 8 _).symm

set_option maxRecDepth 100000 in
theorem lut11_list : lut11.toList = lut10.toList.map (zn 8) := by decide +kernel
theorem lut11_eq (i : Fin 256) : lut11[i] = zn 96 (BitVec.ofNat 32 i.val) := by
  rw [get_of_list _ lut11_list, lut10_eq]; exact (zn_add 88 8 _).symm

set_option maxRecDepth 100000 in
theorem lut12_list : lut12.toList = lut11.toList.map (zn 8) := by decide +kernel
theorem lut12_eq (i : Fin 256) : lut12[i] = zn 104 (BitVec.ofNat 32 i.val) := by
  rw [get_of_list _ lut12_list, lut11_eq]; exact (zn_add 96 8 _).symm

set_option maxRecDepth 100000 in
theorem lut13_list : lut13.toList = lut12.toList.map (zn 8) := by decide +kernel
theorem lut13_eq (i : Fin 256) : lut13[i] = zn 112 (BitVec.ofNat 32 i.val) := by
  rw [get_of_list _ lut13_list, lut12_eq]; exact (zn_add 104 8 _).symm

set_option maxRecDepth 100000 in
theorem lut14_list : lut14.toList = lut13.toList.map (zn 8) := by decide +kernel
theorem lut14_eq (i : Fin 256) : lut14[i] = zn 120 (BitVec.ofNat 32 i.val) := by
  rw [get_of_list _ lut14_list, lut13_eq]; exact (zn_add 112 8 _).symm

set_option maxRecDepth 100000 in
theorem lut15_list : lut15.toList = lut14.toList.map (zn 8) := by decide +kernel
theorem lut15_eq (i : Fin 256) : lut15[i] = zn 128 (BitVec.ofNat 32 i.val) := by
  rw [get_of_list _ lut15_list, lut14_eq]; exact (zn_add 120 8 _).symm

end Verif.Proof.CRC32
