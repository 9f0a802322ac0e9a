import Verif.Lead.Model
import Verif.Filter.Model
/-!
# Stack traces: src/unwind.c, src/unwind-libdw.c, src/unwind-libunwind.c and where src/syscall.c and src/strace.c call them

Texts are lists of character codes.  What libdw and libunwind find out about a process is given: the frames of a stack, and what is known
about an address.  `asprintf` and `xmalloc` do not fail, names are not demangled (strace built without libiberty), and the output goes to the
stream of the tracee.
-/
namespace Strace.Unwind
open Strace.Base Strace.Lead Strace.Filter

/-- what is passed to `call_action`: src/unwind.h:22-32 -/
structure Info where
  bin : Option (List Nat)
  sym : Option (List Nat)
  off : Nat
  trueOff : Nat
  src : Option (List Nat)
  line : Int
  deriving DecidableEq, Repr

/-- what an unwinder reports, in order: src/unwind.h:22-35 -/
inductive Entry
  | call (i : Info)
  | error (msg : List Nat) (off : Nat)
  deriving DecidableEq, Repr

/-- printf `%s` (libc contract, glibc: a null pointer is shown) -/
def str (s : Option (List Nat)) : List Nat := s.getD (codes "(null)")

/-- STACK_ENTRY_SYMBOL_FMT and STACK_ENTRY_SYMBOL_WITH_SRCINFO_FMT: src/unwind.c:85-98 -/
def symFmt (i : Info) (sym : List Nat) : List Nat :=
  match i.src with
  | some f => codes " > " ++ str i.bin ++ codes "(" ++ sym ++ codes "+0x" ++ hex i.off ++ codes ") [0x" ++ hex i.trueOff ++ codes "] " ++ f ++
      codes ":" ++ decI i.line ++ [10]
  | none => codes " > " ++ str i.bin ++ codes "(" ++ sym ++ codes "+0x" ++ hex i.off ++ codes ") [0x" ++ hex i.trueOff ++ codes "]" ++ [10]

/-- STACK_ENTRY_NOSYMBOL_FMT: src/unwind.c:99-101 -/
def noSymFmt (bin : List Nat) (o : Nat) : List Nat := codes " > " ++ bin ++ codes "() [0x" ++ hex o ++ codes "]" ++ [10]

/-- STACK_ENTRY_ERROR_WITH_OFFSET_FMT and STACK_ENTRY_ERROR_FMT: src/unwind.c:104-107 -/
def errFmt (e : List Nat) (o : Nat) : List Nat :=
  if o ≠ 0 then codes " > " ++ e ++ codes " [0x" ++ hex o ++ codes "]" ++ [10] else codes " > " ++ e ++ [10]

/-- `print_call_cb` without the final `line_ended`: src/unwind.c:109-145 -/
def printCall (i : Info) : List Nat :=
  match i.sym with
  | some (c :: s) => symFmt i (c :: s)
  | _ =>
    match i.bin with
    | some b => noSymFmt b i.trueOff
    | none => codes " > BUG IN print_call_cb" ++ [10]

/-- `print_call_cb` and `print_error_cb`: src/unwind.c:109-158 -/
def printEntry : Entry → List Nat
  | .call i => printCall i
  | .error e o => errFmt e o

/-- `sprint_call_or_error` for a call: src/unwind.c:160-210 -/
def sprintCall (i : Info) : List Nat :=
  match i.sym with
  | some s => symFmt i s
  | none =>
    match i.bin with
    | some b => noSymFmt b i.trueOff
    | none => codes " > BUG IN sprint_call_or_error" ++ [10]

/-- `sprint_call_or_error`, as called by `queue_put_call` and `queue_put_error`: src/unwind.c:160-210, 246-271 -/
def sprintEntry : Entry → List Nat
  | .call i => sprintCall i
  | .error e o => errFmt e o

/-! ### The cache of src/unwind-libdw.c -/

/-- `struct cache_entry`: src/unwind-libdw.c:28-44 -/
structure CEnt where
  pc : Nat
  gen : Nat
  info : Info
  lastUse : Nat

/-- `struct ctx` without the handle, and `uwcache_clock`: src/unwind-libdw.c:46-53.  The array is a function of the index. -/
structure Ctx where
  cache : Nat → CEnt
  clock : Nat

/-- what memset leaves -/
def noEnt : CEnt := ⟨0, 0, ⟨none, none, 0, 0, none, 0⟩, 0⟩

/-- the context that `tcb_init` makes: src/unwind-libdw.c:100-104 -/
def newCtx (clock : Nat) : Ctx := ⟨fun _ => noEnt, clock⟩

/-- the first index of a bucket: src/unwind-libdw.c:152-153 -/
def bucket (pc : Nat) : Nat := pc &&& 2016

/-- the loop of `find_bucket`, with the number of rounds left: src/unwind-libdw.c:154-170 -/
def scan (c : Nat → CEnt) (gen pc idx : Nat) : Nat → Nat → Option Nat → Nat → Bool × Nat
  | 0, _, unused, lru => (false, unused.getD lru)
  | n + 1, i, unused, lru =>
    if (c (idx + i)).gen = gen ∧ (c (idx + i)).pc = pc then (true, idx + i)
    else if (c (idx + i)).gen ≠ gen then scan c gen pc idx n (i + 1) (some (idx + i)) lru
    else if (c (idx + i)).lastUse < (c lru).lastUse then scan c gen pc idx n (i + 1) unused (idx + i)
    else scan c gen pc idx n (i + 1) unused lru

/-- `find_bucket`: whether the address was found, and the index: src/unwind-libdw.c:150-173 -/
def findBucket (c : Nat → CEnt) (gen pc : Nat) : Bool × Nat := scan c gen pc (bucket pc) 32 0 none (bucket pc)

/-- an element of the array is set -/
def put (c : Nat → CEnt) (i : Nat) (e : CEnt) : Nat → CEnt := fun j => if j = i then e else c j

/-- what `frame_callback` reports about an address, and the context after it: src/unwind-libdw.c:190-237.  `look` is what libdw knows now; it
is `none` if no module has the address. -/
def lookup (look : Nat → Option Info) (gen : Nat) (x : Ctx) (pc : Nat) : Option Info × Ctx :=
  if (findBucket x.cache gen pc).1 then
    (some (x.cache (findBucket x.cache gen pc).2).info,
      ⟨put x.cache (findBucket x.cache gen pc).2 { x.cache (findBucket x.cache gen pc).2 with lastUse := x.clock }, x.clock + 1⟩)
  else
    match look pc with
    | none => (none, x)
    | some i => (some i, ⟨put x.cache (findBucket x.cache gen pc).2 ⟨pc, gen, i, x.clock⟩, x.clock + 1⟩)

/-- a stack as libdw goes through it: the addresses with what `dwfl_frame_pc` says (`none` if it fails) and whether the frame is an
activation; whether going on fails after the last one; the message of the library -/
structure Stack where
  frames : List (Option Nat × Bool)
  fails : Bool
  msg : List Nat

/-- the address that is looked up: src/unwind-libdw.c:187-188 -/
def framePc (pc : Nat) (act : Bool) : Nat := if act then pc else (pc + 18446744073709551615) % 18446744073709551616

/-- how `dwfl_getthread_frames` ends: all frames, an error, or stopped by the callback -/
inductive Ends
  | all
  | failed
  | stopped
  deriving DecidableEq, Repr

/-- `dwfl_getthread_frames` with `frame_callback`: src/unwind-libdw.c:175-244.  `depth` is the `stack_depth` of the callback. -/
def frames (look : Nat → Option Info) (gen : Nat) (fails : Bool) : List (Option Nat × Bool) → Nat → Ctx → List Info × Ends × Ctx
  | [], _, x => ([], if fails then .failed else .all, x)
  | (none, _) :: _, _, x => ([], .failed, x)
  | (some pc, act) :: r, depth, x =>
    if depth - 1 = 0 then ((lookup look gen x (framePc pc act)).1.toList, .stopped, (lookup look gen x (framePc pc act)).2)
    else
      ((lookup look gen x (framePc pc act)).1.toList ++ (frames look gen fails r (depth - 1) (lookup look gen x (framePc pc act)).2).1,
        (frames look gen fails r (depth - 1) (lookup look gen x (framePc pc act)).2).2)

/-- the error that is reported at the end: src/unwind-libdw.c:268-271 -/
def note (msg : List Nat) : Ends → List Entry
  | .all => []
  | .failed => [.error msg 0]
  | .stopped => [.error (codes "too many stack frames") 0]

/-- `tcb_walk`, when there is a context: src/unwind-libdw.c:246-272 -/
def walk (look : Nat → Option Info) (gen limit : Nat) (s : Stack) (x : Ctx) : List Entry × Ctx :=
  ((frames look gen s.fails s.frames limit x).1.map .call ++ note s.msg (frames look gen s.fails s.frames limit x).2.1,
    (frames look gen s.fails s.frames limit x).2.2)

/-- what happens to a context: a mapping of some process has changed (`update_mapping_generation`, src/unwind-libdw.c:57-61), or the stack is
walked -/
inductive Op
  | changed
  | walked (s : Stack)

/-- the reports of a history: src/unwind-libdw.c:57-61, 246-272.  What libdw knows depends on the generation, because the process is looked at
again when it is another one (`flush_cache_maybe`, src/unwind-libdw.c:117-140). -/
def walks (look : Nat → Nat → Option Info) (limit gen : Nat) (x : Ctx) : List Op → List (List Entry)
  | [] => []
  | .changed :: r => walks look limit (gen + 1) x r
  | .walked s :: r => (walk (look gen) gen limit s x).1 :: walks look limit gen (walk (look gen) gen limit s x).2 r

/-! ### src/unwind-libunwind.c -/

/-- a frame as libunwind sees it: the address (`none` if `unw_get_reg` fails), the mapping with that address if it is executable: name, start and offset,
and the name of the function -/
structure UFrame where
  ip : Option Nat
  map : Option (List Nat × Nat × Nat)
  sym : List Nat
  off : Nat

/-- `print_stack_frame`: what is reported, and whether to go on: src/unwind-libunwind.c:65-110 -/
def uFrame (f : UFrame) : List Entry × Bool :=
  match f.ip with
  | none => ([], false)
  | some ip =>
    match f.map with
    | some m => ([.call ⟨some m.1, some f.sym, f.off, (ip + 18446744073709551616 - m.2.1 + m.2.2) % 18446744073709551616, none, 0⟩], true)
    | none => (if ip ≠ 0 then [.error (codes "unexpected_backtracing_error") ip] else [], false)

/-- the loop of `walk`, with `stack_depth` and the frames that are left, and `stack_depth` after it: src/unwind-libunwind.c:131-137.  `unw_step` returns a positive
number if there is another frame. -/
def uLoop (limit : Nat) : List UFrame → Nat → List Entry × Nat
  | [], d => ([], d)
  | f :: r, d =>
    if d < limit then
      if (uFrame f).2 then
        if r.isEmpty then ((uFrame f).1, d) else ((uFrame f).1 ++ (uLoop limit r (d + 1)).1, (uLoop limit r (d + 1)).2)
      else ((uFrame f).1, d)
    else ([], d)

/-- `walk`: src/unwind-libunwind.c:112-142 -/
def uWalk (limit : Nat) (fs : List UFrame) : List Entry :=
  (uLoop limit fs 0).1 ++ (if (uLoop limit fs 0).2 ≥ limit then [.error (codes "too many stack frames") 0] else [])

/-! ### Which line a stack follows -/

/-- what is written: the line of a call, of a signal, a line about the end of the process or about its personality, and a line of a stack -/
inductive Item
  | call (n : Nat)
  | sig (n : Nat)
  | ended
  | mode
  | frame (t : List Nat)
  deriving DecidableEq, Repr

/-- the statuses that are asked for (`status_set`): src/defs.h, and the messages that are not -/
structure Cfg where
  successful : Bool
  failed : Bool
  unfinished : Bool
  unavailable : Bool
  detached : Bool
  /-- QUIET_EXIT is not in `quiet_set` -/
  tellExit : Bool
  deriving DecidableEq, Repr

/-- `is_complete_set(status_set, NUMBER_OF_STATUSES)` -/
def Cfg.complete (c : Cfg) : Bool := c.successful && c.failed && c.unfinished && c.unavailable && c.detached

/-- a tracee: `queue` is `unwind_queue` (src/unwind.c:25-33), a list from the head to the tail -/
structure St where
  inside : Bool
  /-- the call it is in, if it is traced (not TCB_FILTERED) -/
  call : Option Nat
  /-- whether a memstream is open (`staged_output_data`) -/
  staged : Bool
  queue : List (List Nat)
  deriving DecidableEq, Repr

/-- what happens to a tracee -/
inductive Ev
  /-- it enters a call: its number in the history, if it is traced; whether the stack is captured on entering (STACKTRACE_CAPTURE_ON_ENTER, and
  not the exec that is being checked); what the stack is; whether it runs in another personality than before, and that is told -/
  | enter (n : Option Nat) (onEnter : Bool) (stack : List Entry) (other : Option Bool)
  /-- it leaves the call: whether it failed (`none` if the registers cannot be read), and what the stack is -/
  | leave (failed : Option Bool) (stack : List Entry)
  /-- a signal that is to be shown -/
  | signal (n : Nat) (stack : List Entry)
  /-- the stop before it exits -/
  | exiting
  /-- it has exited -/
  | exited
  deriving Repr

/-- `queue_print`: src/unwind.c:273-295 -/
def queuePrint (q : List (List Nat)) : List Item := q.map .frame

/-- `unwind_tcb_print`: what is written; the queue is empty afterwards: src/unwind.c:300-315 -/
def tcbPrint (s : St) (stack : List Entry) : St × List Item :=
  if s.queue ≠ [] then ({ s with queue := [] }, queuePrint s.queue)
  else (s, stack.map fun e => .frame (printEntry e))

/-- `unwind_tcb_capture`, `none` if strace ends with a message about a bug: src/unwind.c:320-337; `queue_put` appends: src/unwind.c:215-244 -/
def tcbCapture (s : St) (stack : List Entry) : Option St :=
  if s.queue ≠ [] then none else some { s with queue := s.queue ++ stack.map sprintEntry }

/-- `unwind_tcb_fin` followed by `unwind_tcb_init` in `update_personality`, after the message: src/syscall.c:255-274 -/
def persona (s : St) : Option Bool → St × List Item
  | none => (s, [])
  | some told => ({ s with queue := [] }, (if told then [.mode] else []) ++ queuePrint s.queue)

/-- `syscall_entering_trace`, after the registers were read, and `syscall_entering_finish`: src/syscall.c:619-683.  Not with -c. -/
def enter (c : Cfg) (s : St) (n : Option Nat) (onEnter : Bool) (stack : List Entry) : Option St :=
  match n with
  | none => some { s with inside := true, call := none }
  | some n =>
    (if onEnter then tcbCapture s stack else some s).map fun s => { s with inside := true, call := some n, staged := s.staged || !c.complete }

/-- whether a call is shown that has ended so: src/syscall.c:804-808, 842-846 -/
def publish (c : Cfg) : Option Bool → Bool
  | none => if c.complete then true else c.unavailable
  | some f => if c.complete then true else (f && c.failed) || (!f && c.successful)

/-- `syscall_exiting_trace` and `syscall_exiting_finish`: src/syscall.c:787-1045 -/
def leave (c : Cfg) (s : St) (failed : Option Bool) (stack : List Entry) : St × List Item :=
  match s.call with
  | none => ({ s with inside := false }, [])
  | some n =>
    match failed with
    | none => ({ s with inside := false, call := none, staged := false }, if publish c none then [.call n] else [])
    | some f =>
      if publish c (some f) then
        ((tcbPrint { s with inside := false, call := none, staged := false } stack).1,
          .call n :: (tcbPrint { s with inside := false, call := none, staged := false } stack).2)
      else ({ s with inside := false, call := none, staged := false }, [])

/-- `print_event_exit`: src/strace.c:3551-3593 -/
def eventExit (c : Cfg) (s : St) : St × List Item :=
  match s.call with
  | none => (s, [])
  | some n =>
    if s.inside then ({ s with call := none, staged := false }, if c.complete || c.unfinished then [.call n] else []) else (s, [])

/-- `print_exited` and `droptcb`: src/strace.c:3477-3493, 1107-1166.  The stream is still the memstream, if one is open: then what is in it is
written only with the status `detached`; the call itself, if it was not finished before, is then a line too. -/
def exited (c : Cfg) (s : St) : List Item :=
  if s.staged then
    if c.detached then s.call.toList.map .call ++ (if c.tellExit then [.ended] else []) ++ queuePrint s.queue else []
  else s.call.toList.map .call ++ (if c.tellExit then [.ended] else []) ++ queuePrint s.queue

/-- one step; `none` if strace ends: `dispatch_event` and `trace_syscall`, src/strace.c:3925-3947, 3951-4122 -/
def step (c : Cfg) (s : St) : Ev → Option (St × List Item)
  | .enter n onEnter stack other =>
    (enter c (persona s other).1 n onEnter stack).map fun s' => (s', (persona s other).2)
  | .leave failed stack => some (leave c s failed stack)
  | .signal n stack => some ((tcbPrint s stack).1, .sig n :: (tcbPrint s stack).2)
  | .exiting => some (eventExit c s)
  | .exited => some (⟨false, none, false, []⟩, exited c s)

/-- a history of a tracee: what is written, and whether strace ended with a message about a bug -/
def run (c : Cfg) (s : St) : List Ev → List Item × Bool
  | [] => ([], false)
  | e :: r =>
    match step c s e with
    | none => ([], true)
    | some p => (p.2 ++ (run c p.1 r).1, (run c p.1 r).2)

/-- a tracee that was just attached: src/strace.c:963-979, src/unwind.c:46-57 -/
def start : St := ⟨false, none, false, []⟩

end Strace.Unwind
