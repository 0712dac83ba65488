import Verif.Model.WhirlpoolTables
import Verif.Spec.Whirlpool

/-! The tables of whirlpool.h: table 0 combines the S-box and the circulant matrix, table `k` is
table 0 rotated by `k` bytes. -/

namespace Verif.Proof.Whirlpool
open Model.Whirlpool Spec

/-- byte `j` of a word, most significant first -/
def col (x : W64) (j : Fin 8) : Byte := ror 8 x (56 - 8 * j.val)

set_option maxRecDepth 100000

theorem c0_table : ∀ (v : Fin 256) (j : Fin 8), col (cTable0[v]) j =
    Whirlpool.gmul (Whirlpool.sbox (BitVec.ofNat 8 v.val)) (Whirlpool.cir.getD j.val 0) := by
  decide +kernel

theorem rot1 : ∀ v : Fin 256, cTable1[v] = cTable0[v].rotateRight 8 := by decide +kernel
theorem rot2 : ∀ v : Fin 256, cTable2[v] = cTable0[v].rotateRight 16 := by decide +kernel
theorem rot3 : ∀ v : Fin 256, cTable3[v] = cTable0[v].rotateRight 24 := by decide +kernel
theorem rot4 : ∀ v : Fin 256, cTable4[v] = cTable0[v].rotateRight 32 := by decide +kernel
theorem rot5 : ∀ v : Fin 256, cTable5[v] = cTable0[v].rotateRight 40 := by decide +kernel
theorem rot6 : ∀ v : Fin 256, cTable6[v] = cTable0[v].rotateRight 48 := by decide +kernel
theorem rot7 : ∀ v : Fin 256, cTable7[v] = cTable0[v].rotateRight 56 := by decide +kernel

end Verif.Proof.Whirlpool
