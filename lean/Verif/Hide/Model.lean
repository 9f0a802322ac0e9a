/-!
# What is visible of the process strace starts: src/syscall.c, src/strace.c

Between its start and the exec of the program, the process strace starts runs strace's own code.  This file follows the
flags that hide that code: TCB_HIDE_LOG, TCB_CHECK_EXEC_SYSCALL, TCB_FILTERED, and with them TCB_SKIP_DETACH_ON_FIRST_EXEC,
the error number kept from the last result, and the name kept for `--decode-pids=comm`.

One tracee with one thread is followed, from call to call.  `-c` without `-C` and NOMMU systems are not modelled, nor are
stops at which ptrace itself fails.
-/
namespace Strace.Hide

/-- the calls that are treated specially -/
inductive Kind
  /-- execve, execveat, execv -/
  | exec
  /-- prctl with PR_SET_NAME -/
  | setName
  /-- any other call -/
  | other
  deriving DecidableEq, Repr

/-- one call of the tracee.  `traced` is the outcome of the filters: `traced(tcp)` and, with `-P` or `--trace-fds`,
`pathtrace_match`.  `inj` is QUAL_INJECT, set by get_scno for the call.  `err` is the error number strace has at the end
of the call, after an injection, if it reads it.  `ok` says that the kernel did what was asked for, and `name` is then
the new name of the task. -/
structure Call where
  kind : Kind
  traced : Bool
  inj : Bool
  ok : Bool
  err : Nat
  name : List Char
  deriving DecidableEq, Repr

/-- what strace keeps about the tracee -/
structure St where
  /-- TCB_HIDE_LOG -/
  hide : Bool
  /-- TCB_CHECK_EXEC_SYSCALL -/
  check : Bool
  /-- TCB_FILTERED -/
  filtered : Bool
  /-- TCB_SKIP_DETACH_ON_FIRST_EXEC -/
  skip : Bool
  /-- `u_error` -/
  uerr : Nat
  /-- `comm` -/
  comm : List Char
  deriving DecidableEq, Repr

/-- the process started by strace: src/strace.c:1832-1836, and with -D src/strace.c:1841-1842; `comm` is loaded by
`alloctcb`, src/strace.c:1057-1060 -/
def started (comm : List Char) : St :=
  { hide := true, check := false, filtered := false, skip := true, uerr := 0, comm := comm }

/-- a process given with -p, or one that is followed: `alloctcb`, src/strace.c:1057-1060, no flag of these is set -/
def attached (comm : List Char) : St :=
  { hide := false, check := false, filtered := false, skip := false, uerr := 0, comm := comm }

/-- `syscall_entering_trace`, src/syscall.c:619-676: the state after, whether the call is shown, whether
`tamper_with_syscall_entering` is called -/
def enter (c : Call) (s : St) : St × Bool × Bool :=
  -- src/syscall.c:622-643
  let inj := if s.hide then false else c.inj
  let s1 := if s.hide && decide (c.kind = .exec) then { s with hide := false, check := true } else s
  -- src/syscall.c:645-651
  if s1.hide || !c.traced then ({ s1 with filtered := true }, false, false)
  else ({ s1 with filtered := false }, true, inj)

/-- the stop of a successful exec, TE_STOP_BEFORE_EXECVE, src/strace.c:4081-4117: the state after and whether the tracee
is detached.  The tracee is inside of a call, so no stray event is recovered from. -/
def execStop (detachOnExec : Bool) (s : St) : St × Bool :=
  let s1 := { s with check := false }
  if detachOnExec then
    if s1.skip then ({ s1 with skip := false }, false) else (s1, true)
  else (s1, false)

/-- `syscall_exiting_decode`, src/syscall.c:714-741, with `get_error`, src/syscall.c:1537-1552: the state after and
whether the result is shown.  `real` is the name the kernel has for the task, which `load_pid_comm` reads
(src/strace.c:1015-1029); it is read only with `--decode-pids=comm`. -/
def leave (decodeComm : Bool) (c : Call) (real : List Char) (s : St) : St × Bool :=
  -- src/syscall.c:724-726
  let s1 := if decide (c.kind ≠ .other) && decide (s.uerr = 0) && decodeComm then { s with comm := real } else s
  -- src/syscall.c:728-740
  if s1.filtered then (s1, false)
  else
    let s2 := if s1.check then { s1 with hide := true } else s1
    ({ s2 with uerr := c.err }, true)

/-- what comes of a call -/
structure Seen where
  /-- its name and arguments are written -/
  shown : Bool
  /-- the injection of the call is applied -/
  injected : Bool
  /-- its result is written -/
  result : Bool
  /-- the tracee is detached in it -/
  detached : Bool
  deriving DecidableEq, Repr

/-- the name the kernel has for the task after a call -/
def renamed (c : Call) (real : List Char) : List Char :=
  if c.ok && decide (c.kind ≠ .other) then c.name else real

/-- one call from end to end: `trace_syscall` at entry, the stop of a successful exec, `trace_syscall` at exit,
src/strace.c:3925-3947, 4081-4117 -/
def call (decodeComm detachOnExec : Bool) (c : Call) (real : List Char) (s : St) : St × Seen :=
  let (s1, shown, injected) := enter c s
  let (s2, gone) :=
    if c.ok && decide (c.kind = .exec) then execStop detachOnExec s1 else (s1, false)
  if gone then (s2, ⟨shown, injected, false, true⟩)
  else
    let (s3, result) := leave decodeComm c (renamed c real) s2
    (s3, ⟨shown, injected, result, false⟩)

/-- a history of calls: what comes of each, the state and the name the kernel has at the end; nothing is seen after a
detach -/
def run (decodeComm detachOnExec : Bool) : List Call → List Char → St → List Seen × St × List Char
  | [], real, s => ([], s, real)
  | c :: cs, real, s =>
    let (s1, o) := call decodeComm detachOnExec c real s
    if o.detached then ([o], s1, renamed c real)
    else
      let (os, r) := run decodeComm detachOnExec cs (renamed c real) s1
      (o :: os, r)

/-- `print_stopped`, src/strace.c:3494-3515: is a signal that is in the set of `-e signal` shown? -/
def signalShown (inSet : Bool) (s : St) : Bool := !s.hide && inSet

end Strace.Hide
