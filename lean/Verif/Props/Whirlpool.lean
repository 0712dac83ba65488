import Verif.Proof.Whirlpool
import Verif.Proof.MD2

/-!
# C10, C17: MD2, Whirlpool

Specifications: Spec/MD2.lean, Spec/Whirlpool.lean.
-/

namespace Verif.Props
open Spec

/-- C10. -/
theorem C10_MD2 : Model.MD2.MD2.Computes MD2.md2 := Proof.MD2.refines.computes

/-- C40: the substitution table of MD2 is RFC 1319's. -/
theorem C40_MD2_table (i : Fin 256) : Model.MD2.piSubst[i.val] = MD2.S (BitVec.ofNat 8 i.val) :=
  Proof.MD2.pi_table i

example : Legal ([.add [1, 2], .finalize, .reset, .add [], .add (List.replicate 200 7)] ++ [.finalize]) := by
  decide +kernel

/-- C17. -/
theorem C17_Whirlpool : Model.Whirlpool.Whirlpool.ComputesOn (fun m => m.length < 2 ^ 125) Whirlpool.whirlpool :=
  Proof.Whirlpool.refines.computesOn _ _ fun m h => by rw [Proof.Whirlpool.whirlpool128_eq m h]

example : Legal ([.add (List.replicate 65 3), .add [9]] ++ [.finalize]) ∧
    (message [.add (List.replicate 65 3), .add [9]]).length < 2 ^ 125 := by decide +kernel

/-- C40: entry `v` of table `k` holds the products of `S[v]` with row `k` of the circulant matrix,
most significant byte first. -/
theorem C40_Whirlpool_tables (v : Fin 256) (j : Fin 8) :
    let byte (x : BitVec 64) : Byte := (x >>> (56 - 8 * j.val)).setWidth 8
    let p (k : Fin 8) := Whirlpool.gmul (Whirlpool.sbox (BitVec.ofNat 8 v.val)) (Whirlpool.C k j)
    byte Model.Whirlpool.cTable0[v] = p 0 ∧ byte Model.Whirlpool.cTable1[v] = p 1 ∧
    byte Model.Whirlpool.cTable2[v] = p 2 ∧ byte Model.Whirlpool.cTable3[v] = p 3 ∧
    byte Model.Whirlpool.cTable4[v] = p 4 ∧ byte Model.Whirlpool.cTable5[v] = p 5 ∧
    byte Model.Whirlpool.cTable6[v] = p 6 ∧ byte Model.Whirlpool.cTable7[v] = p 7 :=
  Proof.Whirlpool.tables v j

/-- C40: the round constants are the first rows of the matrices c^r. -/
theorem C40_Whirlpool_rc (r : Fin 10) (j : Fin 8) :
    (Model.Whirlpool.roundConstant[r] >>> (56 - 8 * j.val)).setWidth 8 = Whirlpool.rc (r.val + 1) 0 j :=
  Proof.Whirlpool.rc_eq r j

end Verif.Props
