/-!
# Whether --seccomp-bpf can be used: src/filter_seccomp.c:65-253, 571-603, 679-724
-/
namespace Strace.Order

/-- what `waitpid` gives and what the requests made at a stop give; `event` is the status shifted by 16,
`optionsOk` is the result of PTRACE_SETOPTIONS, `resumeOk` that of PTRACE_SYSCALL -/
inductive Ev where
  | eintr
  | waitFails
  | exited (code : Nat)
  | signaled (sig : Nat)
  | odd
  | stopped (sig event : Nat) (optionsOk resumeOk : Bool)
  deriving DecidableEq

/-- what the tracer leaves: `seccomp_filtering`, `seccomp_before_sysentry`, whether the pid returned is not 0, and the messages -/
structure Res where
  filtering : Bool
  before : Bool
  alive : Bool
  messages : Nat
  deriving DecidableEq

/-- SIGSTOP -/
def sigstop : Nat := 19
/-- SIGTRAP -/
def sigtrap : Nat := 5
/-- PTRACE_EVENT_SECCOMP, linux/ptrace.h -/
def eventSeccomp : Nat := 7

/-- a seccomp stop, src/filter_seccomp.c:175-188: the new `seccomp_before_sysentry`, or `none` when the function returns -/
def atSeccomp (before : Bool) : Nat → Option Bool
  | 1 => some true
  | 2 => if before = false then some before else none
  | _ => none

/-- a system call stop, src/filter_seccomp.c:191-206 -/
def atSyscall (before : Bool) : Nat → Option Bool
  | 3 => some before
  | 4 => some before
  | 1 => some false
  | 2 => if before = true then some before else none
  | _ => none

/-- the part of the loop of `check_seccomp_order_tracer` that looks at a stop, src/filter_seccomp.c:151-213:
the new `seccomp_before_sysentry`, or `none` when the function returns -/
def stopOk (step : Nat) (before : Bool) (sig event : Nat) (optionsOk : Bool) : Option Bool :=
  if sig = sigstop then
    if step ≠ 0 then none
    else if optionsOk = false then none
    else some before
  else if sig = sigtrap then
    if event ≠ eventSeccomp then none else atSeccomp before step
  else if sig = sigtrap + 128 then atSyscall before step
  else none

/-- `check_seccomp_order_tracer`, src/filter_seccomp.c:103-223; the events are consumed in order, what is left of them is the second
result; `none`: `waitpid` has not come back. `seccomp_filtering` is false on entry (line 229). -/
def tracer : Nat → Bool → List Ev → Option (Res × List Ev)
  | _, _, [] => none
  | step, before, .eintr :: evs => tracer step before evs
  | _, before, .waitFails :: evs => some (⟨false, before, true, 1⟩, evs)
  | step, before, .exited c :: evs =>
    if step = 5 ∧ c = 0 then some (⟨true, before, false, 0⟩, evs) else some (⟨false, before, false, 1⟩, evs)
  | _, before, .signaled _ :: evs => some (⟨false, before, false, 1⟩, evs)
  | _, before, .odd :: evs => some (⟨false, before, true, 1⟩, evs)
  | step, before, .stopped sig event optionsOk resumeOk :: evs =>
    match stopOk step before sig event optionsOk with
    | none => some (⟨false, before, true, 1⟩, evs)
    | some b => if resumeOk = false then some (⟨false, b, true, 1⟩, evs) else tracer (step + 1) b evs

/-- the last `waitpid`, src/filter_seccomp.c:245-250: the number of calls of `waitpid`, and the events left -/
def reap : Nat → List Ev → Option (Nat × List Ev)
  | _, [] => none
  | n, .eintr :: evs => reap (n + 1) evs
  | n, _ :: evs => some (n + 1, evs)

/-- what `check_seccomp_order` leaves -/
structure Checked where
  filtering : Bool
  before : Bool
  /-- a child was made -/
  forked : Bool
  /-- SIGKILL was sent to it -/
  killed : Bool
  messages : Nat
  /-- events not used -/
  left : List Ev
  deriving DecidableEq

/-- `check_seccomp_order`, src/filter_seccomp.c:226-253, with HAVE_FORK; `before` is `seccomp_before_sysentry`, false at first (line 23) -/
def checkOrder (forkOk : Bool) (evs : List Ev) : Option Checked :=
  if forkOk = false then some ⟨false, false, false, false, 1, evs⟩
  else match tracer 0 false evs with
    | none => none
    | some (r, evs1) =>
      if r.alive = true then
        match reap 0 evs1 with
        | none => none
        | some (_, evs2) => some ⟨r.filtering, r.before, true, true, r.messages, evs2⟩
      else some ⟨r.filtering, r.before, true, false, r.messages, evs1⟩

/-- `EINVAL` -/
def einval : Nat := 22
/-- `EACCES` -/
def eacces : Nat := 13
/-- `USHRT_MAX` -/
def ushrtMax : Nat := 65535
/-- `BPF_MAXINSNS`, linux/bpf_common.h -/
def maxInsns : Nat := 4096

/-- the choice of the program, src/filter_seccomp.c:581-589: a length and the number of the generator; the generators are given by
their result and `overflow` -/
def choose : Nat → Nat × Option Nat → List (Nat × Bool) → Nat × Option Nat
  | _, best, [] => best
  | i, best, (len, overflow) :: gs =>
    choose (i + 1) (if len < best.1 ∧ overflow = false then (len, some i) else best) gs

/-- what a run of the checks leaves: with `seccomp_filtering`, what is needed to use it -/
inductive Outcome where
  | off (noCalls : Bool) (others : Nat) (left : List Ev)
  | on (before : Bool) (generator : Option Nat) (left : List Ev)
  deriving DecidableEq

/-- what the kernel answers outside the test: the result of prctl(PR_SET_SECCOMP, SECCOMP_MODE_FILTER, NULL) with errno, and of fork -/
structure Env where
  probe : Int
  probeErrno : Nat
  forkOk : Bool

/-- `check_seccomp_filter`, src/filter_seccomp.c:707-724, with `check_seccomp_filter_properties`, src/filter_seccomp.c:571-603;
`complete` is `is_complete_set_array` of the calls traced. `off` tells which of the two messages of lines 714-716 and 723 is printed
(`noCalls`) and how many were printed before it (those of lines 77 to 235; the debug messages are left out). -/
def checkFilter (complete : Bool) (e : Env) (gens : List (Nat × Bool)) (evs : List Ev) : Option Outcome :=
  if complete = true then some (.off true 0 evs)
  else if ¬ (e.probe < 0 ∧ e.probeErrno ≠ einval) then some (.off false 0 evs)
  else
    let best := choose 0 (ushrtMax, none) gens
    if best.1 = ushrtMax then some (.off false 0 evs)
    else if best.1 > maxInsns then some (.off false 0 evs)
    else match checkOrder e.forkOk evs with
      | none => none
      | some c => if c.filtering = true then some (.on c.before best.2 c.left) else some (.off false c.messages c.left)

/-- what becomes of the process that is to run the program: it has the filter, and maybe no_new_privs, or it ends -/
inductive Installed where
  | yes (noNewPrivs : Bool)
  | die (noNewPrivs : Bool)
  deriving DecidableEq

/-- `init_seccomp_filter`, src/filter_seccomp.c:679-696; the two results of prctl(PR_SET_SECCOMP), errno of the first, and the result
of prctl(PR_SET_NO_NEW_PRIVS); dump_seccomp_bpf prints only -/
def initFilter (rc1 : Int) (errno : Nat) (nnp rc2 : Int) : Installed :=
  if rc1 = 0 then .yes false
  else if errno = eacces then
    if nnp < 0 then .die false
    else if rc2 = 0 then .yes true
    else .die true
  else .die false

end Strace.Order
