import Verif.Ev.Spec
/-!
# Detaching: src/strace.c (detach_or_interrupt_or_stop, detach_interrupted_or_stopped, detach, cleanup)

Wait statuses are those of `Verif.Ev`; SIGTRAP|0x80, `syscall_trap_sig`, is 133.  Errors of ptrace other than ESRCH
("shouldn't happen") and messages are not modelled.
-/
namespace Strace.Detach
open Ev (Stop wifstopped wstopsig)

/-- requests made to the kernel about a tracee -/
inductive Req
  /-- PTRACE_DETACH -/
  | detach (sig : Nat)
  /-- PTRACE_CONT -/
  | cont (sig : Nat)
  /-- PTRACE_INTERRUPT -/
  | interrupt
  /-- tkill -/
  | kill (sig : Nat)
  deriving DecidableEq, Repr

/-- what strace and the kernel know about a tracee when the detach is asked for -/
structure Tracee where
  /-- `TCB_ATTACHED` -/
  attached : Bool
  /-- `TCB_IGNORE_ONE_SIGSTOP` -/
  ignore : Bool
  /-- exists -/
  alive : Bool
  /-- the ptrace-stop it is in -/
  stop : Option Stop
  deriving DecidableEq, Repr

/-- `detach_or_interrupt_or_stop`, src/strace.c:1180-1241: the requests that succeed, and whether the tracee has to be
waited for -/
def start (seize : Bool) (t : Tracee) : List Req × Bool :=
  if t.attached = false then ([], false)
  else if t.ignore = true then ([], true)
  else if t.alive = false then ([], false)
  else if t.stop ≠ none then ([.detach 0], false)
  else if seize = true then ([.interrupt], true)
  else ([.kill 19], true)

/-- the signal given to PTRACE_DETACH or PTRACE_CONT for a stop signal, src/strace.c:1264-1287, 1299-1300 -/
def sigFor (seize : Bool) (event sig : Nat) : Nat :=
  if seize = true ∧ event = 128 then 0
  else if sig = 133 then 0
  else sig

/-- `detach_interrupted_or_stopped`, src/strace.c:1244-1312: the request, and whether the tracee can be dropped -/
def onStop (seize : Bool) (status : Nat) : Option Req × Bool :=
  if wifstopped status = false then (none, true)
  else if seize = true then (some (.detach (sigFor true (status / 65536) (wstopsig status))), true)
  else if wstopsig status = 19 then (some (.detach 0), true)
  else (some (.cont (sigFor false (status / 65536) (wstopsig status))), false)

/-- the loop of `detach`, src/strace.c:1332-1347, over the stops reported: the requests made, each with the stop it is
made in, and whether the loop ended -/
def waitLoop (seize : Bool) : List Stop → List (Stop × Option Req) × Bool
  | [] => ([], false)
  | s :: l =>
    match onStop seize (s.status seize) with
    | (r, true) => ([(s, r)], true)
    | (r, false) => ((s, r) :: (waitLoop seize l).1, (waitLoop seize l).2)

/-- how a detach ends -/
inductive End
  /-- strace goes on -/
  | done
  /-- strace waits for a report -/
  | waits
  deriving DecidableEq, Repr

/-- `detach`, src/strace.c:1319-1350: first the requests before waiting, then the stops with the requests made in them -/
def detach (seize : Bool) (t : Tracee) (l : List Stop) : List Req × List (Stop × Option Req) × End :=
  if (start seize t).2 = false then ((start seize t).1, [], .done)
  else ((start seize t).1, (waitLoop seize l).1, if (waitLoop seize l).2 = true then .done else .waits)

/-! ### cleanup -/

/-- the first loop of `cleanup`, src/strace.c:3262-3277: the pids to wait for.  The signals sent to the command that
strace started are those of the caller, not modelled here. -/
def toWait (seize : Bool) : List (Nat × Tracee) → List Nat
  | [] => []
  | (p, t) :: l => if (start seize t).2 = true then p :: toWait seize l else toWait seize l

/-- the second loop of `cleanup`, src/strace.c:3279-3315: `left` are the pids in the table, `n` is `num_to_wait`.
Reports of `popen_pid` are left out.  Gives what was requested of whom, and whether the loop ended. -/
def cleanLoop (seize : Bool) : List Nat → Nat → List (Nat × Stop) → List (Nat × Stop × Option Req) × Bool
  | _, 0, _ => ([], true)
  | _, _ + 1, [] => ([], false)
  | left, n + 1, (p, s) :: l =>
    if p ∈ left then
      match onStop seize (s.status seize) with
      | (r, true) => ((p, s, r) :: (cleanLoop seize (left.erase p) n l).1, (cleanLoop seize (left.erase p) n l).2)
      | (r, false) => ((p, s, r) :: (cleanLoop seize left (n + 1) l).1, (cleanLoop seize left (n + 1) l).2)
    else cleanLoop seize left (n + 1) l

/-- `cleanup`, src/strace.c:3252-3316, without PTRACE_O_EXITKILL -/
def cleanup (seize : Bool) (tab : List (Nat × Tracee)) (l : List (Nat × Stop)) :
    List (Nat × Stop × Option Req) × Bool :=
  cleanLoop seize (toWait seize tab) (toWait seize tab).length l

end Strace.Detach
