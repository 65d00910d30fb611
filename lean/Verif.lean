import Verif.Common.Lin
import Verif.Common.LinLemmas
import Verif.Common.Code
import Verif.Integral.Spec
import Verif.Integral.Model
import Verif.Integral.Lemmas
import Verif.Integral.Props
import Verif.Integral.Exact
import Verif.Concurrent.Model
import Verif.Concurrent.Lemmas
import Verif.Concurrent.Props
import Verif.Concurrent.Progress
import Verif.Order.Spec
import Verif.Order.Model
import Verif.Order.Lemmas
import Verif.Order.Props
import Verif.Order.Exact
import Verif.Tso.Spec
import Verif.Tso.Model
import Verif.Tso.Lemmas
import Verif.Tso.Props
import Verif.Futex.Model
import Verif.Futex.Bits
import Verif.Futex.Spec
import Verif.Futex.Lemmas
import Verif.Futex.NotifyLemmas
import Verif.Futex.Props
import Verif.Futex.Witness
import Verif.Chrono.Spec
import Verif.Chrono.Model
import Verif.Chrono.Lemmas
import Verif.Chrono.Props
import Verif.Wait.World
import Verif.Wait.Model
import Verif.Wait.Spec
import Verif.Wait.Lemmas
import Verif.Wait.PropsLemmas
import Verif.Wait.PollLemmas
import Verif.Wait.Native
import Verif.Wait.Props
import Verif.Find.Spec
import Verif.Find.Model
import Verif.Find.Lemmas
import Verif.Find.Props
import Verif.Find.Dispatch
import Verif.Find.DispatchProps
import Verif.Registry.Model
import Verif.Registry.Spec
import Verif.Registry.Lemmas
import Verif.Registry.Inv
import Verif.Registry.Props
import Verif.Select.Spec
import Verif.Select.Model
import Verif.Select.Lemmas
import Verif.Select.Props
import Verif.Bytes.Spec
import Verif.Bytes.Model
import Verif.Bytes.Lemmas
import Verif.Bytes.Attach
import Verif.Bytes.Props
import Verif.Flag.Spec
import Verif.Flag.Model
import Verif.Flag.Lemmas
import Verif.Flag.Props
import Verif.Api.Spec
import Verif.Api.Model
import Verif.Api.Lemmas
import Verif.Api.Props
import Verif.Api.Exact
import Verif.Pair.Spec
import Verif.Pair.Model
import Verif.Pair.Lemmas
import Verif.Pair.Props
import Verif.Weak.Spec
import Verif.Weak.Model
import Verif.Weak.Lemmas
import Verif.Weak.Run
import Verif.Weak.Props
import Verif.Use.Spec
import Verif.Use.Lemmas
import Verif.Use.Props
import Verif.Cond.Model
import Verif.Cond.Spec
import Verif.Cond.Lemmas
import Verif.Cond.Props
import Verif.WaitSel.Model
import Verif.WaitSel.Spec
import Verif.WaitSel.Lemmas
import Verif.WaitSel.Props
import Verif.Asm.Attr
import Verif.Asm.Half
import Verif.Asm.Machine
import Verif.Asm.Spec
import Verif.Asm.Rule
import Verif.Asm.Word
import Verif.Asm.IsaArm
import Verif.Asm.Tactic
import Verif.Asm.System
import Verif.Asm.SystemLemmas
import Verif.Asm.Ops
import Verif.Asm.OpsLemmas
import Verif.Asm.Reach
import Verif.Asm.ArmCode
import Verif.Asm.Arm1Proofs
import Verif.Asm.Arm2Proofs
import Verif.Asm.Arm4Proofs
import Verif.Asm.Arm8Proofs
import Verif.Asm.ArmWordProofs
import Verif.Asm.ArmOps
import Verif.Asm.ArmProps
import Verif.Asm.AArch32Code
import Verif.Asm.AArch32x1Proofs
import Verif.Asm.AArch32x2Proofs
import Verif.Asm.AArch32x4Proofs
import Verif.Asm.AArch32x8Proofs
import Verif.Asm.AArch32Ops
import Verif.Asm.AArch32Props
import Verif.Asm.IsaA64
import Verif.Asm.A64Code
import Verif.Asm.A64Shape
import Verif.Asm.A64Shape16
import Verif.Asm.A64Proofs
import Verif.Asm.A64Ops
import Verif.Asm.A64Props
import Verif.Asm.Assume
import Verif.Asm.IsaAlpha
import Verif.Asm.AlphaCode
import Verif.Asm.AlphaShape
import Verif.Asm.AlphaProofs
import Verif.Asm.Loop
import Verif.Asm.LoopLemmas
import Verif.Asm.AlphaOps
import Verif.Asm.AlphaProps
import Verif.Asm.IsaSparc
import Verif.Asm.SparcCode
import Verif.Asm.SparcProofs
import Verif.Asm.SparcOps
import Verif.Asm.SparcProps
import Verif.Asm.IsaX86
import Verif.Asm.X86Code
import Verif.Asm.X86Shape
import Verif.Asm.X86Call
import Verif.Asm.X86Proofs
import Verif.Asm.X86Ops
import Verif.Asm.X86Props
import Verif.Asm.X86Pair
import Verif.Asm.X86DcasCode
import Verif.Asm.X86DcasProofs
import Verif.Asm.X86DcasOps
import Verif.Asm.X86DcasProps
import Verif.Asm.IsaPpc
import Verif.Asm.PpcCode
import Verif.Asm.PpcShape
import Verif.Asm.PpcProofs
import Verif.Asm.PpcOps
import Verif.Asm.PpcProps
import Verif.Asm.IsaMsvc
import Verif.Asm.MsvcShape
import Verif.Asm.MsvcCode
import Verif.Asm.MsvcProofs
import Verif.Asm.Interlocked
import Verif.Asm.InterlockedCode
import Verif.Asm.MsvcOps
import Verif.Asm.InterlockedLemmas
import Verif.Asm.MsvcLemmas
import Verif.Asm.MsvcProps
import Verif.Asm.Findings
import Verif.Asm.Examples
import Verif.Mca.Spec
import Verif.Mca.Model
import Verif.Mca.Lemmas
import Verif.Mca.Shape
import Verif.Mca.Check
import Verif.Mca.Props
import Verif.Mca.Exact
import Verif.Mca.Interlocked
import Verif.Mca.Sc
import Verif.Mca.ScLemmas
import Verif.Mca.ScProps
import Verif.Mca.MixedSpec
import Verif.Mca.Mixed
import Verif.Mca.Latest
import Verif.Mca.MixedLemmas
import Verif.Mca.MixedProps
import Verif.Pow.Model
import Verif.Pow.Lemmas
import Verif.Pow.ScLemmas
import Verif.Pow.Check
import Verif.Pow.Props
import Verif.Pow.Mixed
import Verif.Pow.MixedLemmas
import Verif.Pow.MixedProps
import Verif.Target.Model
import Verif.Target.Spec
import Verif.Target.Lemmas
import Verif.Target.Props
import Verif.Target.Exact
import Verif.Locked.Spec
import Verif.Locked.Model
import Verif.Locked.Exclusion
import Verif.Locked.OneOrder
import Verif.Locked.Program
import Verif.Locked.Machines
import Verif.Locked.Props
import Verif.Whole.Spec
import Verif.Whole.Model
import Verif.Whole.Race
import Verif.Whole.Interleave
import Verif.Whole.Lemmas
import Verif.Whole.Link
import Verif.Whole.Props
import Verif.Notify.Model
import Verif.Notify.Lemmas
import Verif.Notify.Props
import Verif.Sleep.Model
import Verif.Sleep.Link
import Verif.Sleep.Mutex
import Verif.Sleep.Cond
import Verif.Sleep.Check
import Verif.Sleep.Demo
import Verif.Sleep.DemoFacts
import Verif.Sleep.Solo
import Verif.Sleep.Props
import Verif.Await.Model
import Verif.Await.Loaded
import Verif.Await.Lemmas
import Verif.Await.Props
import Verif.Idiom.Model
import Verif.Idiom.Spec
import Verif.Idiom.Base
import Verif.Idiom.Hist
import Verif.Idiom.Count
import Verif.Idiom.Spin
import Verif.Idiom.Buffer
import Verif.Idiom.Stack
import Verif.Idiom.Once
import Verif.Idiom.Props
import Verif.Idiom.Examples
import Verif.Idiom.Power
import Verif.Kind.Model
import Verif.Kind.Spec
import Verif.Kind.Lemmas
import Verif.Kind.Props
import Verif.Init.Spec
import Verif.Init.Model
import Verif.Init.Props
import Verif.View.Spec
import Verif.View.Model
import Verif.View.Props
import Verif.Pool.Model
import Verif.Pool.Spec
import Verif.Pool.Lemmas
import Verif.Pool.Props
import Verif.Signal.Model
import Verif.Signal.Lemmas
import Verif.Signal.Check
import Verif.Signal.Props
import Verif.Signal.Handler
import Verif.Concurrent.MixProgress
import Verif.Concurrent.Exact
import Verif.Call.Props
import Verif.Call.Units
