import Verif.Ev.Model
/-!
# The main loop: exit code, event queue, syscall limit; src/strace.c
-/
namespace Strace.Ev

/-! ### Exit code -/

/-- `strace_child` and `exit_code` -/
structure Exit where
  child : Nat
  code : Nat
  deriving DecidableEq, Repr

/-- what bears on the exit code -/
inductive Death
  /-- a traced process ended; `pid` is that of its record -/
  | exited (pid status : Nat)
  | signalled (pid status : Nat)
  /-- an untraced process ended -/
  | unknown (pid : Nat)
  /-- the system call limit was reached -/
  | limit

/-- `print_signalled`, `print_exited`, `maybe_allocate_tcb`, `next_event`: src/strace.c:3458-3465,
3477-3484, 3326-3331, 3639-3644 -/
def Exit.step (detachExec : Bool) (x : Exit) : Death → Exit
  | .exited pid status => if pid = x.child then ⟨0, wstopsig status⟩ else x
  | .signalled pid status => if pid = x.child then ⟨0, 256 ||| wtermsig status⟩ else x
  | .unknown pid => if detachExec = true ∧ pid = x.child then { x with child := 0 } else x
  | .limit => { x with child := 0 }

/-- how strace ends -/
inductive End
  | exits (code : Nat)
  | raises (sig : Nat)
  deriving DecidableEq, Repr

/-- `terminate`, src/strace.c:4228-4272; the fallback after a signal that does not kill is not modelled -/
def Exit.terminate (interrupted : Nat) (x : Exit) : End :=
  if (if interrupted ≠ 0 then 256 ||| interrupted else x.code) > 255 then
    .raises ((if interrupted ≠ 0 then 256 ||| interrupted else x.code) &&& 255)
  else .exits (if interrupted ≠ 0 then 256 ||| interrupted else x.code)

/-- a run with a command as child: `main`, src/strace.c:4275-4285 -/
def Exit.run (detachExec : Bool) (child : Nat) (interrupted : Nat) (l : List Death) : End :=
  (l.foldl (Exit.step detachExec) ⟨child, 0⟩).terminate interrupted

/-! ### Event queue -/

/-- the queue of `next_event`: `pending_tcps`, `extra_tcp` with `wait_extra_data_idx`, `tcb_wait_tab`, and the
`wait_data_idx` of each record.  A record is known by its slot. -/
structure Q (ω : Type) where
  pending : List Nat
  extra : Option (Nat × Nat)
  idx : Nat → Nat
  tab : List ω

/-- the collecting loop, src/strace.c:3739-3906, over the wait results `(record, data)` the kernel has;
the results not taken are left in the kernel -/
def collect {ω : Type} : List (Nat × ω) → Q ω → Q ω × List (Nat × ω)
  | [], q => (q, [])
  | (i, w) :: l, q =>
    if i ∈ q.pending then ({ q with extra := some (i, q.tab.length), tab := q.tab ++ [w] }, l)
    else collect l { q with
      pending := q.pending ++ [i], tab := q.tab ++ [w],
      idx := fun j => if j = i then q.tab.length else q.idx j }

/-- src/strace.c:3653-3667, 3908-3923: the next record and its data, without waiting -/
def dequeue {ω : Type} (q : Q ω) : Option (Nat × Option ω) × Q ω :=
  match q.pending with
  | i :: rest => (some (i, q.tab[q.idx i]?), { q with pending := rest })
  | [] =>
    match q.extra with
    | some (i, k) =>
      (some (i, q.tab[k]?), { q with extra := none, idx := fun j => if j = i then k else q.idx j })
    | none => (none, q)

/-- calls of `next_event` until it would wait again -/
def drain {ω : Type} : Nat → Q ω → List (Nat × Option ω)
  | 0, _ => []
  | n + 1, q =>
    match dequeue q with
    | (none, _) => []
    | (some e, q') => e :: drain n q'

/-- dispatching a batch: `pids` gives the pid of each record, 0 when it is free, and an event that ends its
tracee frees the record (src/strace.c:4051-4056, 4074-4077, 3423, 4112).  Gives each event with the pid its
record had when it was dispatched. -/
def dispatchAll {ω : Type} (frees : ω → Bool) : (Nat → Nat) → List (Nat × ω) → List (Nat × ω)
  | _, [] => []
  | pids, (i, w) :: l =>
    (pids i, w) :: dispatchAll frees (if frees w = true then fun j => if j = i then 0 else pids j else pids) l

/-! ### System call limit -/

/-- the main loop with `syscall_limit`: `next_event` ends it when the limit is 0 (src/strace.c:3639-3644),
`syscall_exiting_trace` counts a shown call (src/syscall.c:856-857).  `shown` says whether an event shows a
completed call.  Gives the events handled and the final limit. -/
def limitRun {ω : Type} (shown : ω → Bool) : Int → List ω → List ω × Int
  | lim, [] => ([], lim)
  | lim, w :: l =>
    if lim = 0 then ([], lim)
    else
      (w :: (limitRun shown (if shown w = true ∧ lim ≠ -1 then lim - 1 else lim) l).1,
       (limitRun shown (if shown w = true ∧ lim ≠ -1 then lim - 1 else lim) l).2)

end Strace.Ev
