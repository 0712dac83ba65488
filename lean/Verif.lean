import Verif.Props.SHA2
import Verif.Props.MD
import Verif.Props.Streaming
import Verif.Props.Swap
import Verif.Test.SHA1
import Verif.Test.SHA2
import Verif.Test.MD
import Verif.Test.RIPEMD
import Verif.Test.Asia
import Verif.Test.Tiger
import Verif.Props.Tiger
import Verif.Props.Whirlpool
import Verif.Test.Whirlpool
import Verif.Test.MD2
import Verif.Props.SHA3
import Verif.Test.SHA3
import Verif.Test.SHAKE
import Verif.Props.CShake
import Verif.Props.FloatLog
import Verif.Test.CShake
import Verif.Props.BLAKE
import Verif.Test.BLAKE
import Verif.Model.BLAKE2Calls
import Verif.Props.BLAKE2
import Verif.Test.BLAKE2
import Verif.Props.SipHash
import Verif.Test.SipHash
import Verif.Props.FNV
import Verif.Props.FNVReach
import Verif.Props.Uninit
import Verif.Test.FNV
import Verif.Props.CRC32
import Verif.Props.CRC32Poly
import Verif.Test.CRC32
import Verif.Props.Readout
import Verif.Props.Equality
import Verif.Props.CShakeReadout
import Verif.Props.Overloads
import Verif.Props.Padding
import Verif.Props.PaddingBLAKE
import Verif.Props.PrefixFree
import Verif.Props.CLI
import Verif.Props.CLIStatus
import Verif.Props.CLIText
import Verif.Props.CLIOutput
import Verif.Props.Pi
import Verif.Props.Roots
import Verif.Props.Misuse
import Verif.Props.Keys
import Verif.Props.KeysCShake
import Verif.Props.Sponge
import Verif.Props.Extension
import Verif.Props.ExtensionMD2
import Verif.Props.SHA1Collision
import Verif.Props.CRC32Forge
import Verif.Props.Memory
import Verif.Props.Release
import Verif.Props.Copies
import Verif.Props.CShakeHeap
import Verif.Props.HASV
import Verif.Props.HASVVector
import Verif.Props.HASVMore
import Verif.Props.Alloc
import Verif.Props.AllocRead
import Verif.Props.Threads
import Verif.Props.Moves
import Verif.Props.MovesTuple
import Verif.Model.Machine
import Verif.Proof.Machine
import Verif.Proof.MachineCShake
import Verif.Props.Machine
import Verif.Props.MachineCShake
import Verif.Proof.CShakeAny
import Verif.Props.CShakeAny
import Verif.Core.Access
import Verif.Model.Lookups
import Verif.Proof.Access
import Verif.Proof.Lookups
import Verif.Props.Access
import Verif.Proof.CRC32Three
import Verif.Proof.CRC32ThreeRun
import Verif.Props.CRC32Three
import Verif.Proof.CRC32Four
import Verif.Proof.CRC32Logs
import Verif.Proof.CRC32Five
import Verif.Proof.CRC32FiveRun
import Verif.Props.CRC32Four
import Verif.Core.Work
import Verif.Model.Work
import Verif.Proof.Work
import Verif.Props.Work
import Verif.Props.WorkCShake
import Verif.Proof.Differences
import Verif.Props.Differences
import Verif.Props.Trace
import Verif.Props.StdSpans
import Verif.Props.Typed
import Verif.Props.Footprint
import Verif.Core.Ops
import Verif.Model.Ops
import Verif.Model.OpsTables
import Verif.Proof.Ops
import Verif.Proof.OpsClasses
import Verif.Proof.OpsMore
import Verif.Proof.OpsTables
import Verif.Props.Ops
import Verif.Props.OpsCShake
import Verif.Proof.OpsDefined
import Verif.Proof.OpsDefinedRun
import Verif.Props.OpsDefined
import Verif.Model.KeccakRows
import Verif.Proof.KeccakRows
import Verif.Props.KeccakRows
import Verif.Core.Multicollision
import Verif.Proof.Multicollision
import Verif.Props.Multicollision
import Verif.Core.Remains
import Verif.Model.HASVRemains
import Verif.Proof.Remains
import Verif.Proof.HASVRemains
import Verif.Props.Remains
import Verif.Core.Around
import Verif.Model.Around
import Verif.Proof.Around
import Verif.Props.Around
