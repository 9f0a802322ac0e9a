/-!
# Wait statuses, events and restarting: src/strace.c (next_event, dispatch_event), src/filter_seccomp.c

Numbers are those of Linux: SIGTRAP 5, SIGSTOP 19, SIGTSTP 20, SIGTTIN 21, SIGTTOU 22; PTRACE_EVENT_EXEC 4,
_EXIT 6, _SECCOMP 7, _STOP 128.  Printing is not modelled here.
-/
namespace Strace.Ev

/-- `enum trace_event`, src/trace_event.h -/
inductive TE
  | brk | next | restart | syscallStop | sigDelivery | signalled | groupStop | exited
  | beforeExecve | beforeExit | seccomp
  deriving DecidableEq, Repr

/-- `WTERMSIG` (libc) -/
def wtermsig (status : Nat) : Nat := status % 128
/-- `WIFEXITED` (libc) -/
def wifexited (status : Nat) : Bool := decide (wtermsig status = 0)
/-- `(signed char) x` -/
def schar (x : Nat) : Int := if x % 256 ≥ 128 then (x % 256 : Int) - 256 else (x % 256 : Nat)
/-- `WIFSIGNALED` (libc): `((signed char)((status & 0x7f) + 1) >> 1) > 0` -/
def wifsignaled (status : Nat) : Bool := decide (schar (status % 128 + 1) / 2 > 0)
/-- `WIFSTOPPED` (libc) -/
def wifstopped (status : Nat) : Bool := decide (status % 256 = 127)
/-- `WEXITSTATUS` and `WSTOPSIG` (libc) -/
def wstopsig (status : Nat) : Nat := status / 256 % 256

/-- the `PTRACE_EVENT_STOP` case, src/strace.c:3853-3868 -/
def classifyEventStop (sig : Nat) : TE :=
  if sig = 19 ∨ sig = 20 ∨ sig = 21 ∨ sig = 22 then .groupStop else .restart

/-- the case of no event, src/strace.c:3818-3852.  `ignore` is `TCB_IGNORE_ONE_SIGSTOP`, `siFails` says that
`PTRACE_GETSIGINFO` fails.  Gives the event and the new flag. -/
def classifyPlain (trap sig : Nat) (ignore siFails : Bool) : TE × Bool :=
  if sig = 19 ∧ ignore = true then (.restart, false)
  else if sig = trap then (.syscallStop, ignore)
  else if siFails = true then (.groupStop, ignore)
  else (.sigDelivery, ignore)

/-- the classification of a wait status, src/strace.c:3803-3894; `trap` is `syscall_trap_sig` -/
def classify (trap status : Nat) (ignore siFails : Bool) : TE × Bool :=
  if wifsignaled status = true then (.signalled, ignore)
  else if wifexited status = true then (.exited, ignore)
  else if status / 65536 = 0 then classifyPlain trap (wstopsig status) ignore siFails
  else if status / 65536 = 128 then (classifyEventStop (wstopsig status), ignore)
  else if status / 65536 = 4 then (.beforeExecve, ignore)
  else if status / 65536 = 6 then (.beforeExit, ignore)
  else if status / 65536 = 7 then (.seccomp, ignore)
  else (.restart, ignore)

/-- requests that restart a tracee -/
inductive ROp
  | syscall | cont | listen
  deriving DecidableEq, Repr

/-- the parts of `struct tcb` that matter here -/
structure Tcb where
  /-- `TCB_IGNORE_ONE_SIGSTOP` -/
  ignore : Bool
  /-- `TCB_INSYSCALL` -/
  insys : Bool
  /-- `TCB_SECCOMP_FILTER` -/
  filt : Bool
  /-- `TCB_DELAYED` -/
  delayed : Bool
  /-- `TCB_SKIP_DETACH_ON_FIRST_EXEC` -/
  skipExec : Bool
  pers : Nat
  scno : Nat
  deriving DecidableEq, Repr

/-- the settings -/
structure Cfg where
  /-- `use_seize` -/
  seize : Bool
  /-- `seccomp_before_sysentry` -/
  before : Bool
  /-- `detach_on_execve` -/
  detachExec : Bool
  /-- `syscall_trap_sig` -/
  trap : Nat
  /-- `nsyscall_vec` -/
  nsys : Nat → Nat
  /-- `traced_by_seccomp(scno, personality)` -/
  traced : Nat → Nat → Bool

/-- what decoding a syscall stop gives: `decode` is the result of `syscall_entering_decode` or
`syscall_exiting_decode`, `res` that of the decoder, `sig` and `delay` what is injected -/
structure Sys where
  decode : Int
  res : Int
  sig : Nat
  delay : Bool
  scno : Nat
  pers : Nat

/-- what strace did with a stop -/
inductive Handled
  | entry (scno : Nat) | exit (scno : Nat)
  deriving DecidableEq, Repr

/-- result of `trace_syscall` -/
structure Traced where
  res : Int
  sig : Nat
  tcb : Tcb
  log : List Handled

/-- the entering half of `trace_syscall`, src/strace.c:3928-3937 with src/syscall.c:477-527,
552-563, 593-655, 657-662 -/
def traceEntering (t : Tcb) (s : Sys) : Traced :=
  if s.decode = 0 then ⟨0, 0, t, []⟩
  else if s.decode = 1 then
    ⟨s.res, s.sig, { t with insys := true, scno := s.scno, pers := s.pers, delayed := t.delayed || s.delay },
      [.entry s.scno]⟩
  else ⟨s.decode, 0, { t with insys := true, scno := s.scno, pers := s.pers }, []⟩

/-- the exiting half of `trace_syscall`, src/strace.c:3938-3946 with src/syscall.c:529-563, 709-741,
787-1028, 1030-1046.  A filtered call (decode 0) is also over. -/
def traceExiting (t : Tcb) (s : Sys) : Traced :=
  if s.decode = 0 then ⟨0, 0, { t with insys := false }, [.exit t.scno]⟩
  else if s.decode = 1 then
    ⟨0, 0, { t with insys := false, delayed := t.delayed || s.delay }, [.exit t.scno]⟩
  else ⟨s.decode, 0, { t with insys := false, delayed := t.delayed || s.delay }, [.exit t.scno]⟩

/-- `trace_syscall`, src/strace.c:3925-3947 -/
def traceSyscall (t : Tcb) (s : Sys) : Traced :=
  if t.insys = false then traceEntering t s else traceExiting t s

/-- `seccomp_filter_restart_operator`, src/filter_seccomp.c:698-705; `cur` is `current_personality` -/
def filterOp (c : Cfg) (cur : Nat) (t : Tcb) : ROp :=
  if t.insys = true ∧ t.scno < c.nsys cur ∧ c.traced cur t.scno = true then .syscall else .cont

/-- the initial `restart_op`, src/strace.c:3962-3965 -/
def defaultOp (c : Cfg) (cur : Nat) (t : Tcb) : ROp :=
  if t.filt = true then filterOp c cur t else .syscall

/-- outcome of `dispatch_event` -/
inductive Out
  /-- the main loop ends -/
  | quit
  /-- the tracee is not restarted: it is believed to be dying -/
  | dying
  /-- the tracee is gone -/
  | gone
  /-- `-b execve` -/
  | detached
  /-- kept stopped by a delay -/
  | held
  | resumed (op : ROp) (sig : Nat)
  deriving DecidableEq, Repr

/-- result of `dispatch_event` -/
structure Res where
  out : Out
  tcb : Tcb
  log : List Handled

/-- the end of `dispatch_event`, src/strace.c:4122-4142; a failing restart request is not modelled -/
def finish (interrupted : Bool) (t : Tcb) (op : ROp) (sig : Nat) (log : List Handled) : Res :=
  if interrupted = true then ⟨.quit, t, log⟩
  else if t.delayed = true then ⟨.held, t, log⟩
  else ⟨.resumed op sig, t, log⟩

/-- the syscall stop case, src/strace.c:4000-4049 -/
def onSyscall (c : Cfg) (cur : Nat) (interrupted : Bool) (t : Tcb) (s : Sys) : Res :=
  if (traceSyscall t s).res < 0 then ⟨.dying, (traceSyscall t s).tcb, (traceSyscall t s).log⟩
  else finish interrupted (traceSyscall t s).tcb
    (if (traceSyscall t s).tcb.filt = true then
       (if (traceSyscall t s).tcb.insys = true then .syscall else .cont)
     else defaultOp c cur t)
    (traceSyscall t s).sig (traceSyscall t s).log

/-- src/strace.c:4107-4115 and the end -/
def execDetach (c : Cfg) (interrupted : Bool) (t : Tcb) (op : ROp) (sig : Nat) (log : List Handled) : Res :=
  if c.detachExec = true then
    (if t.skipExec = true then finish interrupted { t with skipExec := false } op sig log
     else ⟨.detached, t, log⟩)
  else finish interrupted t op sig log

/-- the exec case, src/strace.c:4079-4116.  `thread` is the record `maybe_switch_current_tcp` switches to. -/
def onExec (c : Cfg) (cur : Nat) (interrupted : Bool) (t : Tcb) (thread : Option Tcb) (s : Sys) : Res :=
  match thread with
  | some t' => execDetach c interrupted t' (defaultOp c cur t) 0 []
  | none =>
    if t.insys = true then execDetach c interrupted t (defaultOp c cur t) 0 []
    else if (traceSyscall t s).res < 0 then ⟨.dying, (traceSyscall t s).tcb, (traceSyscall t s).log⟩
    else execDetach c interrupted (traceSyscall t s).tcb (defaultOp c cur t) (traceSyscall t s).sig
      (traceSyscall t s).log

/-- `dispatch_event`, src/strace.c:3950-4143 -/
def dispatch (c : Cfg) (cur : Nat) (interrupted : Bool) (t : Tcb) (thread : Option Tcb) (s : Sys)
    (te : TE) (status : Nat) : Res :=
  match te with
  | .brk => ⟨.quit, t, []⟩
  | .next => ⟨.dying, t, []⟩
  | .restart => finish interrupted t (defaultOp c cur t) 0 []
  | .seccomp =>
    if t.filt = false then finish interrupted { t with filt := true } .syscall 0 []
    else if c.before = true then finish interrupted t .syscall 0 []
    else onSyscall c cur interrupted t s
  | .syscallStop => onSyscall c cur interrupted t s
  | .sigDelivery => finish interrupted t (defaultOp c cur t) (wstopsig status) []
  | .signalled => ⟨.gone, t, []⟩
  | .groupStop =>
    if c.seize = true then finish interrupted t .listen 0 []
    else finish interrupted t (defaultOp c cur t) (wstopsig status) []
  | .exited => ⟨.gone, t, []⟩
  | .beforeExecve => onExec c cur interrupted t thread s
  | .beforeExit => finish interrupted t (defaultOp c cur t) 0 []

/-- `restart_delayed_tcb`, src/strace.c:4147-4173: the personality is not set -/
def restartDelayed (c : Cfg) (cur : Nat) (t : Tcb) (s : Sys) : Res :=
  dispatch c cur false { t with delayed := false } none s .restart 0

/-- a stop of a tracee goes through classification and dispatch; src/strace.c:3911-3923 makes the tracee's
personality current -/
def deliver (c : Cfg) (interrupted : Bool) (t : Tcb) (thread : Option Tcb) (s : Sys) (status : Nat)
    (siFails : Bool) : Res :=
  dispatch c t.pers interrupted { t with ignore := (classify c.trap status t.ignore siFails).2 } thread s
    (classify c.trap status t.ignore siFails).1 status

end Strace.Ev
