import Verif.Conform
import Verif.Env.Cache
import Verif.Env.Handlers
import Verif.Env.Kernel
import Verif.Env.Older
import Verif.Env.Programs
import Verif.Env.Runtime
import Verif.Env.Teams
import Verif.Env.Tracer
import Verif.Libc
import Verif.Model.Alloc
import Verif.Model.Asm
import Verif.Model.Basic
import Verif.Model.Bpf
import Verif.Model.Errors
import Verif.Model.Filters
import Verif.Model.Full
import Verif.Model.Ids
import Verif.Model.Init
import Verif.Model.Log
import Verif.Model.Pledge
import Verif.Model.Promises
import Verif.Model.Sched
import Verif.Model.Seccomp
import Verif.Model.Signals
import Verif.Model.Steered
import Verif.Model.Traced
import Verif.Model.Trapped
import Verif.Model.Vm
import Verif.Proofs.Accept
import Verif.Proofs.AcceptMem
import Verif.Proofs.Account
import Verif.Proofs.Agree
import Verif.Proofs.Alone
import Verif.Proofs.Asm
import Verif.Proofs.AsmRun
import Verif.Proofs.Bits
import Verif.Proofs.Check
import Verif.Proofs.Coarse
import Verif.Proofs.Cost
import Verif.Proofs.Ev
import Verif.Proofs.Frag
import Verif.Proofs.Full
import Verif.Proofs.Ids
import Verif.Proofs.Init
import Verif.Proofs.InitRun
import Verif.Proofs.KernelEv
import Verif.Proofs.KernelTotal
import Verif.Proofs.Linear
import Verif.Proofs.Log
import Verif.Proofs.Mixed
import Verif.Proofs.Path
import Verif.Proofs.Policy
import Verif.Proofs.Prefix
import Verif.Proofs.Prog
import Verif.Proofs.Sched
import Verif.Proofs.Signals
import Verif.Proofs.Stack
import Verif.Proofs.Table
import Verif.Proofs.VmKernel
import Verif.Proofs.VmStep
import Verif.Proofs.Whence
import Verif.Props.Accept
import Verif.Props.Account
import Verif.Props.Actual
import Verif.Props.Agree
import Verif.Props.Alloc
import Verif.Props.AllocExact
import Verif.Props.Alone
import Verif.Props.Asm
import Verif.Props.Cache
import Verif.Props.Coarse
import Verif.Props.Compare
import Verif.Props.Cost
import Verif.Props.Encoding
import Verif.Props.Errors
import Verif.Props.Exact
import Verif.Props.Express
import Verif.Props.Full
import Verif.Props.Grow
import Verif.Props.Handlers
import Verif.Props.Ids
import Verif.Props.Init
import Verif.Props.Install
import Verif.Props.Kernel
import Verif.Props.Limit
import Verif.Props.Linear
import Verif.Props.Log
import Verif.Props.Looks
import Verif.Props.Offline
import Verif.Props.Older
import Verif.Props.Path
import Verif.Props.Plain
import Verif.Props.Policy
import Verif.Props.Programs
import Verif.Props.Reach
import Verif.Props.Readback
import Verif.Props.Reduce
import Verif.Props.Redundant
import Verif.Props.Result
import Verif.Props.Returns
import Verif.Props.Rules
import Verif.Props.Runtime
import Verif.Props.Sched
import Verif.Props.Scope
import Verif.Props.Signals
import Verif.Props.Stale
import Verif.Props.Steered
import Verif.Props.Table
import Verif.Props.Teams
import Verif.Props.Traced
import Verif.Props.TracedPledge
import Verif.Props.Trapped
import Verif.Props.Verdict
import Verif.Props.Vm
import Verif.Props.VmKernel
import Verif.Props.Whence
import Verif.Props.Word
import Verif.Spec.Accept
import Verif.Spec.Account
import Verif.Spec.Actual
import Verif.Spec.Agree
import Verif.Spec.Alloc
import Verif.Spec.Alone
import Verif.Spec.Asm
import Verif.Spec.Cache
import Verif.Spec.Coarse
import Verif.Spec.Cost
import Verif.Spec.Express
import Verif.Spec.Full
import Verif.Spec.Handlers
import Verif.Spec.History
import Verif.Spec.Init
import Verif.Spec.Limit
import Verif.Spec.Linear
import Verif.Spec.Log
import Verif.Spec.Looks
import Verif.Spec.Observe
import Verif.Spec.Path
import Verif.Spec.Policy
import Verif.Spec.Programs
import Verif.Spec.Readback
import Verif.Spec.Returns
import Verif.Spec.Runtime
import Verif.Spec.Sched
import Verif.Spec.Scope
import Verif.Spec.Signals
import Verif.Spec.Size
import Verif.Spec.Steered
import Verif.Spec.Table
import Verif.Spec.Teams
import Verif.Spec.Traced
import Verif.Spec.Trapped
import Verif.Spec.Vm
import Verif.Spec.Whence
import Verif.Spec.Word
