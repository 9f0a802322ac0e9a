import Verif.StringToUint.Props
import Verif.NumberSet.Props
import Verif.Filter.Props
import Verif.Inject.Props
import Verif.Quote.Props
import Verif.Xlat.Props
import Verif.Time.Props
import Verif.Bits.SelProps
import Verif.Seccomp.Props
import Verif.Trie.IterProps
import Verif.UCopy.Props
import Verif.Tcb.Props
import Verif.Ev.SecProps
import Verif.Ev.LoopProps
import Verif.Out.Stage
import Verif.Delay.Props
import Verif.Detach.Props
import Verif.Walk.NlProps
import Verif.Walk.CmsgProps
import Verif.Walk.DentProps
import Verif.Show.ArrayProps
import Verif.Show.DumpProps
import Verif.Count.Props
import Verif.Count.SortProps
import Verif.Misc.ScnoProps
import Verif.Misc.RulesProps
import Verif.Misc.EnvProps
import Verif.Misc.MapsProps
import Verif.Misc.ListsProps
import Verif.Misc.PokeProps
import Verif.Misc.PidnsProps
import Verif.Path.Props
import Verif.Cli.NamesProps
import Verif.Cli.PidListProps
import Verif.Cli.PathSearchProps
import Verif.Cli.PokeProps
import Verif.Cli.InjectProps
import Verif.Result.Model
import Verif.Result.Props
import Verif.Args.Model
import Verif.Args.Props
import Verif.Args.Subcall
import Verif.Args.SubcallProps
import Verif.Hide.Model
import Verif.Hide.Props
import Verif.Show.Dumpio
import Verif.Show.DumpioProps
import Verif.Pack.Model
import Verif.Pack.Spec
import Verif.Pack.Read
import Verif.Pack.Props
import Verif.Tracee.PollProps
import Verif.Tracee.ArgvProps
import Verif.Tracee.DmProps
import Verif.Sized.CloneProps
import Verif.Sized.PerfShown
import Verif.Sized.Examples
import Verif.Sock.Model
import Verif.Sock.Spec
import Verif.Sock.Props
import Verif.Sock.Fields
import Verif.Sock.Ax25
import Verif.Sock.Shown
import Verif.Sock.Main
import Verif.Sock.Texts
import Verif.Sock.Findings
import Verif.Sets.Props
import Verif.Sets.Icmp
import Verif.Sig.Props
import Verif.Sig.Findings
import Verif.Diag.Model
import Verif.Diag.Spec
import Verif.Diag.Lemmas
import Verif.Diag.Props
import Verif.Diag.Kern
import Verif.Diag.Family
import Verif.Diag.Findings
import Verif.Regs.Model
import Verif.Regs.Spec
import Verif.Regs.Lemmas
import Verif.Regs.Props
import Verif.Regs.History
import Verif.Regs.Modes
import Verif.Regs.Findings
import Verif.Arr.Model
import Verif.Arr.Spec
import Verif.Arr.Props
import Verif.Msg.Model
import Verif.Msg.Spec
import Verif.Msg.Lemmas
import Verif.Msg.Props
import Verif.Msg.Main
import Verif.Msg.Examples
import Verif.Opt.Model
import Verif.Opt.Spec
import Verif.Opt.Lemmas
import Verif.Opt.Props
import Verif.Lead.Model
import Verif.Lead.Spec
import Verif.Lead.Lemmas
import Verif.Lead.Props
import Verif.Lead.Rel
import Verif.Lead.Args
import Verif.Unwind.Model
import Verif.Unwind.Spec
import Verif.Unwind.Props
import Verif.Unwind.Cache
import Verif.Fds.Props
import Verif.Cred.Props
import Verif.Attach.Props
import Verif.Deco.Model
import Verif.Deco.Spec
import Verif.Deco.Lemmas
import Verif.Deco.Props
import Verif.Deco.Text
import Verif.Kvm.Model
import Verif.Kvm.Spec
import Verif.Kvm.Props
import Verif.Kvm.Examples
import Verif.Priv.Model
import Verif.Priv.Spec
import Verif.Priv.Props
import Verif.Bpf.Model
import Verif.Bpf.Spec
import Verif.Bpf.Props
import Verif.Bpf.Names
import Verif.Psi.Model
import Verif.Psi.Spec
import Verif.Psi.Props
import Verif.Packed.Model
import Verif.Packed.Spec
import Verif.Packed.Props
import Verif.Sockopt.Model
import Verif.Sockopt.Spec
import Verif.Sockopt.Props
import Verif.Secon.Model
import Verif.Secon.Spec
import Verif.Secon.Props
import Verif.Gram.Model
import Verif.Gram.Spec
import Verif.Gram.Props
import Verif.Order.Props
import Verif.Ioc.Props
import Verif.Hw.Props
import Verif.Nlerr.Props
import Verif.Fcntl.Props
import Verif.Quote.Trail
import Verif.Filled.Props
import Verif.Inout.Props
import Verif.Expl.Props
import Verif.Prctl.Props
import Verif.Pack.CtrlProps
import Verif.Ops.Props
import Verif.Table.Props
import Verif.Sigc.Props
import Verif.Tsf.Props
import Verif.Fork.Props
import Verif.Battr.Props
import Verif.Memc.Props
import Verif.Aio.Props
import Verif.Lim.Props
import Verif.Net.Props
import Verif.Ring.Props
import Verif.Rreg.Props
