import Verif.Tcb.Model
/-!
# Attaching at startup: src/strace.c (process_opt_p_list, startup_child, startup_attach, attach_tcb)

The table of tracees is that of `Verif.Tcb`; the payload of a record says whether the flag TCB_ATTACHED is set.
-/
namespace Strace.Attach
open Strace.Tcb

/-- a directory entry of /proc/PID/task: `tid` is `string_to_uint(d_name)`, -1 when that is not a number -/
structure Dirent where
  fileno : Nat
  tid : Int

/-- the system: whether the `n`-th attempt to attach succeeds for a process that is not traced (it exists, it is allowed
and nobody else traces it), the directory /proc/PID/task as it is read after `n` attempts (`none` if it cannot be opened),
and whether `interrupted` is set after `n` attempts -/
structure World where
  can : Nat → Nat → Bool
  tasks : Nat → Nat → Option (List Dirent)
  interrupted : Nat → Bool

/-- the kernel's side: the processes this strace traces, the latest first, and the number of attempts made -/
structure Kernel where
  traced : List Nat
  n : Nat

/-- `ptrace_attach_or_seize`, src/strace.c:564-576: a process that is traced already cannot be attached to (ptrace(2),
EPERM).  That PTRACE_SEIZE succeeds and PTRACE_INTERRUPT fails, the process dying in between, is not modelled. -/
def ptraceAttach (w : World) (k : Kernel) (pid : Nat) : Bool × Kernel :=
  if pid ∉ k.traced ∧ w.can k.n pid = true then (true, ⟨pid :: k.traced, k.n + 1⟩)
  else (false, ⟨k.traced, k.n + 1⟩)

/-- messages: src/strace.c:1391-1392, 1506-1507, and 1435-1442 (the number of threads, if it is given) -/
inductive Msg
  | failed (pid : Nat)
  | refused (pid : Nat)
  | attached (pid : Nat) (threads : Option Nat)
  deriving DecidableEq, Repr

/-- what is going on: strace's table, the kernel, the messages so far, the latest first -/
structure S where
  st : St Bool
  k : Kernel
  msgs : List Msg

/-- `tcp->flags |= TCB_ATTACHED`, src/strace.c:966, for the record `i` of `pid` -/
def setAttached (st : St Bool) (i pid : Nat) : St Bool := { st with tab := st.tab.set i ⟨pid, true⟩ }

/-- the loop over /proc/PID/task, src/strace.c:1410-1430; the result has `ntid` and `nerr`, `none` is out of memory -/
def threads (w : World) (main : Nat) : List Dirent → St Bool → Kernel → Nat → Nat → Option (St Bool × Kernel × Nat × Nat)
  | [], st, k, ntid, nerr => some (st, k, ntid, nerr)
  | d :: l, st, k, ntid, nerr =>
    if d.fileno = 0 then threads w main l st k ntid nerr
    else if d.tid ≤ 0 ∨ d.tid = (main : Int) then threads w main l st k ntid nerr
    else if (ptraceAttach w k d.tid.toNat).1 = true then
      match alloctcb false st d.tid.toNat true with
      | none => none
      | some (st', _) => threads w main l st' (ptraceAttach w k d.tid.toNat).2 (ntid + 1) nerr
    else threads w main l st (ptraceAttach w k d.tid.toNat).2 (ntid + 1) (nerr + 1)

/-- what the loop runs over, src/strace.c:1405-1407; `child` is `strace_child`, 0 if there is none.  `get_proc_pid`, which
translates between pid namespaces, is the identity here. -/
def listing (follow : Bool) (child : Nat) (w : World) (k : Kernel) (pid : Nat) : List Dirent :=
  if follow = true ∧ pid ≠ child then
    match w.tasks k.n pid with
    | none => []
    | some l => l
  else []

/-- the number of threads in the message, src/strace.c:1435-1442 -/
def threadCount (ntid nerr : Nat) : Option Nat :=
  if ntid > nerr then some (ntid - nerr + 1) else none

/-- `attach_tcb`, src/strace.c:1385-1444, on the record `i` of `pid`; the message is given as with no --quiet=attach -/
def attachTcb (follow : Bool) (child : Nat) (w : World) (s : S) (i pid : Nat) : Option S :=
  if (ptraceAttach w s.k pid).1 = true then
    match threads w pid (listing follow child w (ptraceAttach w s.k pid).2 pid) (setAttached s.st i pid)
        (ptraceAttach w s.k pid).2 0 0 with
    | none => none
    | some (st, k, ntid, nerr) => some ⟨st, k, .attached pid (threadCount ntid nerr) :: s.msgs⟩
  else some ⟨droptcb false s.st i, (ptraceAttach w s.k pid).2, .failed pid :: s.msgs⟩

/-- how strace was called, and who it is: `parent` is `parent_pid` and `tracer` `strace_tracer_pid`, which are different
when the tracer is daemonized, src/strace.c:1449-1470 -/
structure Cfg where
  follow : Bool
  child : Nat
  parent : Nat
  tracer : Nat

/-- the body of the loop for a record that is not attached, src/strace.c:1505-1512 -/
def visit (c : Cfg) (w : World) (s : S) (i pid : Nat) : Option S :=
  if pid = c.parent ∨ pid = c.tracer then some ⟨droptcb false s.st i, s.k, .refused pid :: s.msgs⟩
  else attachTcb c.follow c.child w s i pid

/-- the next record from `i` on that is in use and not attached, src/strace.c:1495-1503: its number and its pid -/
def next : List (Slot Bool) → Nat → Option (Nat × Nat)
  | [], _ => none
  | s :: l, i => if s.pid ≠ 0 ∧ s.data = false then some (i, s.pid) else next l (i + 1)

/-- how it ends; `more` is that the loop has not ended after as many records as it was given leave to visit -/
inductive Res
  | oom
  | more
  | interrupted (s : S)
  | done (s : S)

/-- the loop of `startup_attach`, src/strace.c:1495-1516, from record `i` on.  The pass over records that need nothing is
`next`; a refused process goes on without looking at `interrupted`. -/
def loop (c : Cfg) (w : World) : Nat → S → Nat → Res
  | 0, _, _ => .more
  | n + 1, s, i =>
    match next (s.st.tab.drop i) i with
    | none => .done s
    | some (j, pid) =>
      match visit c w s j pid with
      | none => .oom
      | some s' =>
        if w.interrupted s'.k.n = true ∧ ¬ (pid = c.parent ∨ pid = c.tracer) then .interrupted s'
        else loop c w n s' (j + 1)

/-- `process_opt_p_list` for the processes named by -p, in that order: a record each, src/strace.c:1378 -/
def listed : List Nat → St Bool → Option (St Bool)
  | [], st => some st
  | p :: l, st =>
    match alloctcb false st p false with
    | none => none
    | some (st', _) => listed l st'

/-- the program strace starts: none, attached to as soon as it runs (src/strace.c:1832-1836), or, with -D, not yet
(src/strace.c:1838-1842) -/
inductive Child
  | none
  | own (pid : Nat)
  | parent (pid : Nat)

/-- `strace_child`, src/strace.c:1800 and 1839 -/
def Child.pid : Child → Nat
  | .none => 0
  | .own p => p
  | .parent p => p

/-- the record of the program, src/strace.c:1832-1842 -/
def addChild (st : St Bool) : Child → Option (St Bool)
  | .none => some st
  | .own p =>
    match alloctcb false st p true with
    | Option.none => Option.none
    | some (st', _) => some st'
  | .parent p =>
    match alloctcb false st p false with
    | Option.none => Option.none
    | some (st', _) => some st'

/-- what is traced before `startup_attach` -/
def Child.traced : Child → List Nat
  | .own p => [p]
  | _ => []

/-- everything up to the end of `startup_attach`; the loop is given leave to visit as many records as were made -/
def startup (ps : List Nat) (ch : Child) (follow : Bool) (parent tracer : Nat) (w : World) : Res :=
  match listed ps Tcb.init with
  | none => .oom
  | some st =>
    match addChild st ch with
    | none => .oom
    | some st' => loop ⟨follow, ch.pid, parent, tracer⟩ w (ps.length + 2) ⟨st', ⟨ch.traced, 0⟩, []⟩ 0

end Strace.Attach
