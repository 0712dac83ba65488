import Verif.Proof.SHA1
import Verif.Proof.MD4
import Verif.Proof.MD5
import Verif.Proof.RIPEMD
import Verif.Proof.HAS160
import Verif.Proof.SM3

/-!
# C07, C11-C15: SHA-1, MD4, MD5, RIPEMD, HAS-160, SM3

`Computes spec` (Core/API.lean): after every legal history ending in `finalize`, `toArray` succeeds
and returns `spec` of the bytes added since the last reset. The specifications are Spec/SHA1.lean,
Spec/MD4.lean, Spec/MD5.lean, Spec/RIPEMD.lean, Spec/HAS160.lean, Spec/SM3.lean.
-/

namespace Verif.Props
open Spec

/-- C07. -/
theorem C07_SHA1 : Model.SHA1.SHA1.Computes SHA1.sha1 := Proof.SHA1.refines.computes
/-- C11. -/
theorem C11_MD4 : Model.MD4.MD4.Computes MD4.md4 := Proof.MD4.refines.computes
/-- C12. -/
theorem C12_MD5 : Model.MD5.MD5.Computes MD5.md5 := Proof.MD5.refines.computes
/-- C13. -/
theorem C13_RIPEMD_128 : Model.RIPEMD.RIPEMD_128.Computes RIPEMD.ripemd128 := Proof.RIPEMD.r128.computes
theorem C13_RIPEMD_160 : Model.RIPEMD.RIPEMD_160.Computes RIPEMD.ripemd160 := Proof.RIPEMD.r160.computes
theorem C13_RIPEMD_256 : Model.RIPEMD.RIPEMD_256.Computes RIPEMD.ripemd256 := Proof.RIPEMD.r256.computes
theorem C13_RIPEMD_320 : Model.RIPEMD.RIPEMD_320.Computes RIPEMD.ripemd320 := Proof.RIPEMD.r320.computes
/-- C14. -/
theorem C14_HAS_160 : Model.HAS160.HAS_160.Computes HAS160.has160 := Proof.HAS160.refines.computes
/-- C15. -/
theorem C15_SM3 : Model.SM3.SM3.Computes SM3.sm3 := Proof.SM3.refines.computes

example : Legal ([.add [1, 2], .finalize, .reset, .add [], .add (List.replicate 200 7)] ++ [.finalize]) := by
  decide +kernel

end Verif.Props
