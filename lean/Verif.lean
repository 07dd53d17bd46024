import Verif.Bounds.Props
import Verif.Strings.Props
import Verif.Path.Props
import Verif.Path.Cwd
import Verif.FileTree.Props
import Verif.Callback.Props
import Verif.PathSyscall.Props
import Verif.Net.Props
import Verif.AddrInfo.Props
import Verif.Rpc.Props
import Verif.Rpc.Victim
import Verif.Teardown.Props
import Verif.Token.Crash
import Verif.Sem.Props
import Verif.Child.Props
import Verif.Start.HostProps
import Verif.Handle.Props
import Verif.Socket.Props
import Verif.Location.Props
import Verif.Vtable.Props
import Verif.Shm.Props
import Verif.Seccomp.Props
import Verif.Syscall.Props
import Verif.ChildArgs.Props
import Verif.Lifetime.Props
import Verif.ChildHeap.Props
import Verif.ChildHeap.ThreadProps
import Verif.Main.Props
import Verif.Pivot.Props
import Verif.Init.Props
import Verif.Message.Props
import Verif.Nest.Props
import Verif.Boot.Props
import Verif.Defaults.Props
import Verif.EndToEnd.Props
import Verif.Umtx.Props
import Verif.Reap.Props
import Verif.Capsicum.Model
import Verif.Capsicum.Props
import Verif.FreeBsd.Model
import Verif.FreeBsd.Spec
import Verif.FreeBsd.Props
import Verif.Alloc.Model
import Verif.Alloc.Props
import Verif.Names.Model
import Verif.Names.Props
import Verif.Poll.Model
import Verif.Poll.Props
import Verif.Race.Model
import Verif.Race.Props
import Verif.Threads.Model
import Verif.Threads.Spec
import Verif.Threads.Lemmas
import Verif.Threads.Props
import Verif.Threads.Always
import Verif.Token.Hang
import Verif.Token.Destroy
import Verif.NetEnd.Model
import Verif.NetEnd.Spec
import Verif.NetEnd.Lemmas
import Verif.NetEnd.Props
import Verif.Call.Props
import Verif.Call.Check
import Verif.Authority.Model
import Verif.Authority.Spec
import Verif.Authority.Props
import Verif.Authority.Isolation
import Verif.Authority.Frames
import Verif.Balance.Props
import Verif.Authority.Answer
import Verif.UserEnd.Props
import Verif.NameEnd.Props
import Verif.NameEnd.ExactProps
import Verif.RelEnd.Props
import Verif.Run.Props
import Verif.Run.TotalProps
import Verif.Whole.Model
import Verif.Whole.Spec
import Verif.Whole.Props
import Verif.Whole.Hostile
import Verif.Whole.HostileProps
import Verif.Seccomp.SameProps
import Verif.Reach.Props
import Verif.BsdPath.Props
import Verif.Throw.Props
import Verif.Records.Props
import Verif.OpenMode.Props
import Verif.RefArgs.Props
import Verif.Timed.Props
import Verif.Timed.Exact
import Verif.Hb.Props
import Verif.Signals.BreakProps
import Verif.SigMem.Props
import Verif.Resize.Props
import Verif.Token.Later
import Verif.Make.Props
import Verif.Nest.Short
import Verif.Cycle.First
import Verif.BsdMake.Props
import Verif.BsdMake.Child
import Verif.BsdMake.ChildProps
import Verif.Run.NoMemory
import Verif.Authority.Ends
import Verif.Balance.Ends
import Verif.Balance.Leaks
import Verif.Balance.UserProps
import Verif.Balance.Thrown
import Verif.Syscall.Ends
import Verif.FreeBsd.Ends
import Verif.EndToEnd.Ends
import Verif.RelEnd.Ends
import Verif.NetEnd.Ends
import Verif.NameEnd.Ends
import Verif.PathSyscall.Ends
import Verif.Reap.Serial
import Verif.Reap.Always
import Verif.Run.Ends
import Verif.Signals.Closing
import Verif.Signals.Release
import Verif.Signals.Exact
import Verif.Token.Hostile
import Verif.Pool.Props
import Verif.Family.Props
import Verif.Child.Pd
import Verif.BsdEnd.Props
import Verif.BsdNet.Model
import Verif.BsdNet.Spec
import Verif.BsdNet.Lemmas
import Verif.BsdNet.Props
import Verif.BsdNet.Ends
import Verif.BsdRel.Model
import Verif.BsdRel.Spec
import Verif.BsdRel.Lemmas
import Verif.BsdRel.Props
import Verif.BsdRel.Ends
import Verif.BsdFamily.Props
import Verif.BsdName.Props
import Verif.BsdName.Ends
import Verif.BsdName.ExactProps
import Verif.BsdRun.Props
import Verif.BsdRun.TotalProps
import Verif.BsdEnd.Ends
import Verif.BsdRun.Ends
import Verif.BsdAuthority.Props
import Verif.BsdAuthority.Answers
import Verif.BsdBalance.Props
import Verif.BsdBalance.UserProps
import Verif.BsdBalance.Thrown
import Verif.Whole.TotalProps
import Verif.BsdWhole.Props
import Verif.BsdWhole.TotalProps
import Verif.Balance.Several
import Verif.BsdBalance.Several
import Verif.Authority.Sockets
import Verif.Authority.SocketsExact
import Verif.BsdAuthority.AnswersExact
import Verif.Authority.PathsExact
import Verif.BsdAuthority.PathsExact
import Verif.Authority.LookupExact
import Verif.BsdAuthority.LookupExact
import Verif.Authority.UsersExact
import Verif.BsdAuthority.UsersExact
import Verif.Authority.Memoryless
import Verif.BsdAuthority.Memoryless
import Verif.Audit
