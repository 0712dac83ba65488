import Verif.Proof.TigerGenData

/-! The S-box generation of Tiger, evaluated by the kernel in ten runs of 512 steps. -/

namespace Verif.Proof.Tiger
open Spec

set_option maxRecDepth 1000000
set_option Elab.async false

theorem sched_eq : sched = specSched.map fun p => (p.1.toNat, p.2.toNat) := by decide +kernel

theorem step0 : run sched 512 0 g0 = g1 := G.eq_of_beq _ _ (by decide +kernel)
theorem step1 : run sched 512 512 g1 = g2 := G.eq_of_beq _ _ (by decide +kernel)
theorem step2 : run sched 512 1024 g2 = g3 := G.eq_of_beq _ _ (by decide +kernel)
theorem step3 : run sched 512 1536 g3 = g4 := G.eq_of_beq _ _ (by decide +kernel)
theorem step4 : run sched 512 2048 g4 = g5 := G.eq_of_beq _ _ (by decide +kernel)
theorem step5 : run sched 512 2560 g5 = g6 := G.eq_of_beq _ _ (by decide +kernel)
theorem step6 : run sched 512 3072 g6 = g7 := G.eq_of_beq _ _ (by decide +kernel)
theorem step7 : run sched 512 3584 g7 = g8 := G.eq_of_beq _ _ (by decide +kernel)
theorem step8 : run sched 512 4096 g8 = g9 := G.eq_of_beq _ _ (by decide +kernel)
theorem step9 : run sched 512 4608 g9 = g10 := G.eq_of_beq _ _ (by decide +kernel)

end Verif.Proof.Tiger
