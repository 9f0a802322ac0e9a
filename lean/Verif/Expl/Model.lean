/-!
# Model of the explanation that follows a result

A decoder can leave a text for the line of the result, as in `= 0x8002 (flags O_RDWR|O_LARGEFILE)`.  It leaves a pointer in
a field of the thread and returns a flag; the line shows what the pointer leads to if the flag is there and the pointer is
not null.  The field is never cleared between calls, and the pointers lead to static buffers that are written again and
again.  The model has the field of each thread, the buffers, and the decoders that use the field.

Simplifications: the text that a decoder makes from its own call is a given of the call (`own`; its making is modelled in
other areas); the decoders of alpha that return two numbers (alpha.c:15-30) are not in the model, nor is the rest of the line.
-/
namespace Strace.Expl

/-- A text. -/
abbrev Txt := List Char

/-- Static buffers: that of `sprintflags` (xlat.c:316), that of `sprinttime` (util.c:498), that of the signal masks
(signal.c:151), that of `signame` (signal.c:115 and 134), and those that decoders have for themselves. -/
inductive Buf | flags | time | mask | signal | own (n : Nat)
deriving DecidableEq, Repr

/-- What the field points to: a constant text or a buffer (defs.h:284). -/
inductive Ptr | lit (t : Txt) | buf (b : Buf)
deriving DecidableEq, Repr

/-- The calls whose decoders use the field, and all the others.  `cmd` is the first argument of membarrier, `misfeature` the
second argument of PR_GET_SPECULATION_CTRL. -/
inductive Dec
  | select | poll | recvmmsg
  | fGetfd | fGetfl | fGetlease | fGetSeals | fGetsig
  | ioprioGet | kvmRun | setThreadArea | membarrier (cmd : Nat) | nsGetNstype | personality
  | prGetDumpable | prGetSecurebits | prMceKillGet | prGetFpMode | prSveSetVl | prSveGetVl
  | prGetSpeculationCtrl (misfeature : Nat) | prGetTaggedAddrCtrl | prPacGetEnabledKeys | prSmeSetVl | prSmeGetVl
  | prGetMdwe | prRiscvVGetControl | prPpcGetDexcr
  | archReqXcompPerm | time | schedGetscheduler | kernFeatures
  | ssetmask | signal | sgetmask | osfSigprocmask | rtSigtimedwait
  | adjtimex | v4l2CreateBufs | clone | clone3 | setns | unshare
  | other
deriving DecidableEq, Repr

/-- A call that has ended: its decoder, whether it has failed, its result, the text that its decoder makes for it (none: the
function that makes it returned NULL), and whether what the text is made from is to be had (memory that can be read, an
output that is not abbreviated away, `-e verbose`, `--decode-fds` and the like, each as the decoder asks for it). -/
structure Call where
  dec : Dec
  failed : Bool
  rval : Int
  own : Option Txt
  avail : Bool
deriving DecidableEq, Repr

/-- What a decoder does with the field: nothing, or a new value; and whether it returns `RVAL_STR` (defs.h:465). -/
structure Act where
  assign : Option (Option Ptr)
  str : Bool
deriving DecidableEq, Repr

/-- `return 0` -/
def nothing : Act := ⟨none, false⟩

/-- The pointer to a text that has just been put into `b`. -/
def into (b : Buf) (t : Option Txt) : Option Ptr := t.map fun _ => .buf b

/-- A text of a table (xlat.c, `xlookup`). -/
def table (t : Option Txt) : Option Ptr := t.map .lit

/-- "Timeout" -/
def timeout : Txt := ['T', 'i', 'm', 'e', 'o', 'u', 't']

/-- The buffer that a decoder fills for its text, if it fills one. -/
def bufOf : Dec → Option Buf
  | .select => some (.own 1)
  | .poll => some (.own 2)
  | .recvmmsg => some (.own 3)
  | .fGetfd => some .flags
  | .fGetfl => some (.own 4)
  | .fGetSeals => some .flags
  | .fGetsig => some .signal
  | .ioprioGet => some (.own 5)
  | .setThreadArea => some (.own 6)
  | .membarrier _ => some .flags
  | .personality => some (.own 7)
  | .prGetSecurebits => some .flags
  | .prGetFpMode => some .flags
  | .prSveSetVl => some (.own 8)
  | .prSveGetVl => some (.own 8)
  | .prGetSpeculationCtrl _ => some .flags
  | .prGetTaggedAddrCtrl => some (.own 9)
  | .prPacGetEnabledKeys => some .flags
  | .prSmeSetVl => some (.own 10)
  | .prSmeGetVl => some (.own 10)
  | .prGetMdwe => some .flags
  | .prRiscvVGetControl => some (.own 11)
  | .prPpcGetDexcr => some .flags
  | .archReqXcompPerm => some .flags
  | .time => some .time
  | .kernFeatures => some .flags
  | .ssetmask => some .mask
  | .signal => some (.own 12)
  | .sgetmask => some .mask
  | .osfSigprocmask => some .mask
  | .rtSigtimedwait => some .signal
  | .v4l2CreateBufs => some (.own 13)
  | .clone => some (.own 14)
  | .clone3 => some (.own 14)
  | .setns => some (.own 14)
  | .unshare => some (.own 14)
  | _ => none

/-- The assignment of the text of a call: to the buffer of its decoder, or from a table. -/
def text (c : Call) : Option Ptr :=
  match bufOf c.dec with
  | some b => into b c.own
  | none => table c.own

/-- The usual end: `tcp->auxstr = …; return RVAL_STR;` -/
def explainIt (c : Call) : Act := ⟨some (text c), true⟩

/-- The decoders on exiting from a call. -/
def onExit (c : Call) : Act :=
  match c.dec with
  -- desc.c:84-141
  | .select =>
    if c.failed then nothing
    else if c.rval = 0 then ⟨some (some (.lit timeout)), true⟩
    else explainIt c
  -- poll.c:64-135: not if there is no text
  | .poll =>
    if c.failed then nothing
    else if c.rval = 0 then ⟨some (some (.lit timeout)), true⟩
    else if c.avail = false then nothing
    else if c.own = none then nothing
    else explainIt c
  -- mmsghdr.c:236-248
  | .recvmmsg =>
    if c.failed then nothing
    else if c.rval = 0 then ⟨some (some (.lit timeout)), true⟩
    else if c.avail = false then nothing
    else explainIt c
  -- fcntl.c:168-172
  | .fGetfd => if c.failed ∨ c.rval = 0 then nothing else explainIt c
  -- fcntl.c:173-177
  | .fGetfl => if c.failed then nothing else explainIt c
  -- fcntl.c:196-200
  | .fGetlease => if c.failed then nothing else explainIt c
  -- fcntl.c:201-206
  | .fGetSeals => if c.failed ∨ c.rval = 0 then nothing else explainIt c
  -- fcntl.c:207-211
  | .fGetsig => if c.failed ∨ c.rval = 0 then nothing else explainIt c
  -- ioprio.c:80-86
  | .ioprioGet => if c.failed then nothing else if c.avail = false then ⟨some none, true⟩ else explainIt c
  -- kvm.c:355-369 and 325-340
  | .kvmRun =>
    if c.failed then nothing
    else if c.avail = false then ⟨some none, false⟩
    else ⟨some (text c), c.own.isSome⟩
  -- ldt.c:165-176
  | .setThreadArea => if c.avail = false ∨ c.failed then nothing else explainIt c
  -- membarrier.c:35-43: only MEMBARRIER_CMD_QUERY is decoded on exiting
  | .membarrier cmd => if cmd ≠ 0 ∨ c.failed ∨ c.rval = 0 then nothing else explainIt c
  -- nsfs.c:44-49
  | .nsGetNstype => if c.failed then ⟨none, true⟩ else explainIt c
  -- personality.c:35-46
  | .personality => if c.failed then nothing else explainIt c
  -- prctl.c:303-309
  | .prGetDumpable => if c.failed then nothing else explainIt c
  -- prctl.c:398-406
  | .prGetSecurebits => if c.failed ∨ c.rval = 0 then nothing else explainIt c
  -- prctl.c:434-443
  | .prMceKillGet => if c.failed then nothing else explainIt c
  -- prctl.c:473-481
  | .prGetFpMode => if c.failed ∨ c.rval = 0 then nothing else explainIt c
  -- prctl.c:503-519
  | .prSveSetVl => if c.failed ∨ c.rval = 0 then nothing else explainIt c
  | .prSveGetVl => if c.failed ∨ c.rval = 0 then nothing else explainIt c
  -- prctl.c:521-543
  | .prGetSpeculationCtrl m =>
    if c.failed then nothing
    else if m = 0 ∨ m = 1 ∨ m = 2 then explainIt c
    else ⟨none, true⟩
  -- prctl.c:578-587
  | .prGetTaggedAddrCtrl => if c.failed then nothing else explainIt c
  -- prctl.c:613-623
  | .prPacGetEnabledKeys => if c.failed then nothing else explainIt c
  -- prctl.c:667-683
  | .prSmeSetVl => if c.failed ∨ c.rval = 0 then nothing else explainIt c
  | .prSmeGetVl => if c.failed ∨ c.rval = 0 then nothing else explainIt c
  -- prctl.c:691-701
  | .prGetMdwe => if c.failed then nothing else explainIt c
  -- prctl.c:715-722
  | .prRiscvVGetControl => if c.failed then nothing else explainIt c
  -- prctl.c:737-749
  | .prPpcGetDexcr => if c.failed ∨ c.rval = 0 then nothing else explainIt c
  -- prctl.c:849-866
  | .archReqXcompPerm => if c.rval ≤ 0 then nothing else explainIt c
  -- print_time.c:29-33
  | .time => if c.failed then nothing else explainIt c
  -- sched.c:24-27
  | .schedGetscheduler => if c.failed then nothing else explainIt c
  -- sparc.c:16-24
  | .kernFeatures => if c.failed then nothing else explainIt c
  -- signal.c:286-290
  | .ssetmask => if c.failed then nothing else explainIt c
  -- signal.c:393-396
  | .signal => if c.failed then nothing else explainIt c
  -- signal.c:402-405
  | .sgetmask => if c.failed then nothing else explainIt c
  -- signal.c:443-446
  | .osfSigprocmask => if c.failed then nothing else explainIt c
  -- signal.c:793-796
  | .rtSigtimedwait => if c.failed = false ∧ c.rval ≠ 0 then explainIt c else nothing
  -- time.c:197-206: not if the structure cannot be fetched, as after an error
  | .adjtimex => if c.failed ∨ c.avail = false then nothing else explainIt c
  -- v4l2.c:1501-1507
  | .v4l2CreateBufs => if c.failed ∨ c.avail = false then nothing else explainIt c
  -- clone.c:225-229, 393-397, 418-422 and 435-439: `avail` is that namespaces are to be shown and that the call had some
  | .clone => if c.avail ∧ c.failed = false then ⟨some (text c), c.own.isSome⟩ else nothing
  | .clone3 => if c.avail ∧ c.failed = false then ⟨some (text c), c.own.isSome⟩ else nothing
  | .setns => if c.avail ∧ c.failed = false then ⟨some (text c), c.own.isSome⟩ else nothing
  | .unshare => if c.avail ∧ c.failed = false then ⟨some (text c), c.own.isSome⟩ else nothing
  | .other => nothing

/-- strace's memory: the field of each thread, the result and the error it has of the last call of each, and the buffers. -/
structure State where
  aux : Nat → Option Ptr
  rval : Nat → Int
  failed : Nat → Bool
  buf : Buf → Txt

/-- strace.c, `alloctcb`: all fields of a thread are zero to begin with. -/
def init : State := ⟨fun _ => none, fun _ => 0, fun _ => false, fun _ => []⟩

/-- What happens: a thread begins a call, or ends one, or some other text is put into a buffer. -/
inductive Event
  | enter (tid : Nat) (dec : Dec) (own : Option Txt)
  | exit (tid : Nat) (c : Call)
  | write (b : Buf) (t : Txt)

/-- `f` with another value at `x`. -/
def upd {α β : Type} [DecidableEq α] (f : α → β) (x : α) (v : β) : α → β := fun y => if y = x then v else f y

/-- What a pointer leads to. -/
def deref (s : State) : Ptr → Txt
  | .lit t => t
  | .buf b => s.buf b

/-- The text of a decoder goes into its buffer, if it makes one. -/
def fill (s : State) (d : Dec) (t : Option Txt) : State :=
  match bufOf d, t with
  | some b, some t => { s with buf := upd s.buf b t }
  | _, _ => s

/-- The part of a decoder's work that is in this model, and the flag. -/
def apply (s : State) (tid : Nat) (c : Call) (a : Act) : State :=
  match a.assign with
  | none => s
  | some p => { fill s c.dec c.own with aux := upd s.aux tid p }

/-- prctl.c:737-749: on entering a call with PR_PPC_GET_DEXCR, which does not return then, the result and the error are those
of the call before; `own` is the text for that result.  Other decoders leave the field alone on entering. -/
def enterCall (s : State) (tid : Nat) (d : Dec) (own : Option Txt) : State :=
  match d with
  | .prPpcGetDexcr =>
    if s.failed tid ∨ s.rval tid = 0 then s
    else apply s tid ⟨d, false, s.rval tid, own, true⟩ (explainIt ⟨d, false, s.rval tid, own, true⟩)
  | _ => s

/-- syscall.c:1005-1006 -/
def shownText (s : State) (tid : Nat) (a : Act) : Option Txt :=
  if a.str then (s.aux tid).map (deref s) else none

/-- syscall.c:830-839 and 1005-1006 for the end of a call. -/
def exitCall (s : State) (tid : Nat) (c : Call) : State × Option Txt :=
  let a := onExit c
  let s' := apply { s with rval := upd s.rval tid c.rval, failed := upd s.failed tid c.failed } tid c a
  (s', shownText s' tid a)

/-- The lines of a history: the thread and the explanation, for each call that ends. -/
def run (s : State) : List Event → List (Nat × Option Txt)
  | [] => []
  | .enter t d own :: l => run (enterCall s t d own) l
  | .exit t c :: l => (t, (exitCall s t c).2) :: run (exitCall s t c).1 l
  | .write b x :: l => run { s with buf := upd s.buf b x } l

end Strace.Expl
