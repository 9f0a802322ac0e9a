/-!
# Model of following children: src/strace.c (maybe_allocate_tcb, startup_tcb, next_event) and what the kernel does

A world has the tasks of the kernel, the records of strace and the messages strace has printed.  An action is something that the
kernel lets happen; the actions that are reports of `wait4` contain what strace does with them.

Simplifications: an execve by a thread, which changes process numbers, is C29; `-b execve`, ^C and --syscall-limit are left out,
and so are the calls that strace shows (C17, C25); a restart always succeeds; strace has no children but those it traces and the
command of `-o '|command'`; the reports of wait4 are handled in the order in which they come (C30).
-/
namespace Strace.Fork

/-- A task, as the kernel has it. -/
structure Task where
  pid : Nat
  /-- strace is its tracer -/
  traced : Bool
  /-- PTRACE_O_TRACECLONE, PTRACE_O_TRACEFORK and PTRACE_O_TRACEVFORK are set for it -/
  opts : Bool
  /-- it is to stop, or has stopped, for the first time, and strace has not been told of it: it runs no code of its own -/
  held : Bool
  /-- it has ended, which has not been reported -/
  dead : Bool
deriving DecidableEq, Repr

/-- How strace runs. -/
structure Cfg where
  /-- src/strace.c:71 `followfork` (-f) -/
  follow : Bool
  /-- src/strace.c:144 `use_seize` -/
  seize : Bool
  /-- src/strace.c:3679 `popen_pid != 0`: -o '|command' -/
  pipe : Bool
  /-- `--quiet=attach`, `--quiet=exit` -/
  quietAttach : Bool
  quietExit : Bool
deriving DecidableEq, Repr

/-- A message. -/
inductive Msg
  /-- src/strace.c:3348 -/
  | attached (pid : Nat)
  /-- src/strace.c:3360 -/
  | detached (pid : Nat)
  /-- src/strace.c:3338-3339 -/
  | ignored (pid : Nat)
deriving DecidableEq, Repr

/-- The world. -/
structure World where
  tasks : List Task
  /-- the records: the process number and TCB_STARTUP -/
  table : List (Nat × Bool)
  log : List Msg
  /-- strace has ended -/
  ended : Bool
deriving DecidableEq, Repr

/-- Something that happens. -/
inductive Act
  /-- a task makes another one, with CLONE_UNTRACED, with CLONE_PTRACE -/
  | clone (parent child : Nat) (untraced ptrace : Bool)
  /-- a task ends -/
  | die (pid : Nat)
  /-- the end of a task is reported -/
  | reap (pid : Nat)
  /-- wait4 reports that a task has stopped -/
  | stop (pid : Nat)
  /-- strace is about to wait, and wait4 has nothing to report -/
  | wait
deriving DecidableEq, Repr

/-- The task with a process number. -/
def find (p : Nat) (l : List Task) : Option Task := l.find? fun t => t.pid == p

/-- Changes the task with a process number. -/
def update (p : Nat) (f : Task → Task) (l : List Task) : List Task := l.map fun t => if t.pid = p then f t else t

/-- The kernel's kernel_clone and ptrace_init_task (not in /repo): the new task is traced if the tracer has asked for it and
CLONE_UNTRACED is not given, or if CLONE_PTRACE is given; it inherits the options and begins with a stop. -/
def child (parent : Task) (pid : Nat) (untraced ptrace : Bool) : Task :=
  let traced := parent.traced && ((!untraced && parent.opts) || ptrace)
  { pid, traced, opts := traced && parent.opts, held := traced, dead := false }

/-- src/strace.c:3517-3533 `startup_tcb`, if TCB_STARTUP is set (src/strace.c:3916-3917): the options are set unless PTRACE_SEIZE has
set them (src/strace.c:3020-3023 makes those of `ptrace_setoptions`); and src/strace.c:4139 restarts the task. -/
def proceed (c : Cfg) (startup : Bool) (t : Task) : Task :=
  { t with opts := if startup && !c.seize then c.follow else t.opts, held := false }

/-- src/strace.c:3358 PTRACE_DETACH. -/
def released (t : Task) : Task := { t with traced := false, opts := false, held := false }

/-- A message that may be silenced. -/
def say (quiet : Bool) (m : Msg) : List Msg := if quiet then [] else [m]

/-- A stop is reported: src/strace.c:3766-3773 and `maybe_allocate_tcb`, src/strace.c:3343-3363, then src/strace.c:3916-3917. -/
def onStop (c : Cfg) (w : World) (p : Nat) : World :=
  match w.table.find? fun e => e.1 == p with
  | some e =>
    { w with tasks := update p (proceed c e.2) w.tasks
             table := w.table.map fun e => if e.1 = p then (p, false) else e }
  | none =>
    if c.follow then
      { w with tasks := update p (proceed c true) w.tasks
               table := w.table ++ [(p, false)]
               log := w.log ++ say c.quietAttach (.attached p) }
    else
      { w with tasks := update p released w.tasks
               log := w.log ++ say c.quietAttach (.detached p) }

/-- An end is reported: src/strace.c:4056-4059 and 4076-4079 drop the record; `maybe_allocate_tcb`, src/strace.c:3327-3341, if there
is none. -/
def onExit (c : Cfg) (w : World) (p : Nat) : World :=
  if w.table.any fun e => e.1 == p then
    { w with tasks := w.tasks.filter (·.pid != p), table := w.table.filter (·.1 != p) }
  else
    { w with tasks := w.tasks.filter (·.pid != p), log := w.log ++ say c.quietExit (.ignored p) }

/-- strace ends, and with it all tracing. -/
def leave (w : World) : World := { w with tasks := w.tasks.map released, table := [], ended := true }

/-- Nothing to report: src/strace.c:3679-3687, where `nprocs` is the number of records (C23), and src/strace.c:3739-3745, where wait4
fails with ECHILD if there is no task to wait for. -/
def onWait (c : Cfg) (w : World) : World :=
  if c.pipe && w.table.isEmpty then leave w
  else if w.table.isEmpty && w.tasks.all (fun t => !t.traced) then leave w
  else w

/-- What happens when an action is possible. -/
def step (c : Cfg) (w : World) : Act → Option World
  | .clone p q untraced ptrace =>
    match find p w.tasks, find q w.tasks with
    | some t, none =>
      if t.dead || t.held then none else some { w with tasks := w.tasks ++ [child t q untraced ptrace] }
    | _, _ => none
  | .die p =>
    match find p w.tasks with
    | some t => if t.dead then none else some { w with tasks := update p (fun t => { t with dead := true }) w.tasks }
    | none => none
  | .reap p =>
    match find p w.tasks with
    | some t =>
      if !t.dead then none
      else if t.traced then (if w.ended then none else some (onExit c w p))
      else some { w with tasks := w.tasks.filter (·.pid != p) }
    | none => none
  | .stop p =>
    match find p w.tasks with
    | some t => if t.dead || !t.traced || w.ended then none else some (onStop c w p)
    | none => none
  | .wait => if w.ended then none else some (onWait c w)

/-- A sequence of actions. -/
def run (c : Cfg) (w : World) : List Act → Option World
  | [] => some w
  | a :: as =>
    match step c w a with
    | some w => run c w as
    | none => none

/-- After attaching: `l` are the tasks that strace has attached to, each with `held`, which says that it cannot run before
strace is told of its first stop (a program strace has started: src/strace.c:1619-1640, 1777-1836).  PTRACE_SEIZE sets the options
(src/strace.c:571), PTRACE_ATTACH and PTRACE_TRACEME do not. -/
def start (c : Cfg) (l : List (Nat × Bool)) : World :=
  { tasks := l.map fun e => ⟨e.1, true, c.seize && c.follow, e.2, false⟩
    table := l.map fun e => (e.1, true)
    log := [], ended := false }

end Strace.Fork
