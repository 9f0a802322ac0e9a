import Verif.Ops.Model
import Verif.Result.Model
/-!
# Model of the decoders of the calls about signals

signal, sigaction, sigprocmask, sigpending, sigsuspend, sgetmask, ssetmask, their successors with names that begin with rt_,
and the calls that send signals: what is shown of the arguments when the call begins and when it ends, and what is shown next to
the result.

Simplifications: the machine is x86_64, its programs have words of 8 bytes or (i386) of 4 bytes; a set of signals is shown as the
number whose bit k stands for the signal k + 1 (its text is modelled in area Bits), numbers that are shown as names or flags are
the numbers themselves, and siginfo and timespec are shown by their bytes; descriptors and processes are shown by their numbers only;
`-e raw` is off.
-/
namespace Strace.Sigc
open Strace.Prctl (Mem Phase umoven number toInt)
open Strace.Ops (Call memAt)

/-- The calls. -/
inductive Sys
  | kill | tkill | tgkill
  | ssetmask | sgetmask | signal | sigaction | sigsuspend | sigprocmask | sigpending
  | rtSigprocmask | rtSigaction | rtSigpending | rtSigsuspend
  | rtSigqueueinfo | rtTgsigqueueinfo | pidfdSendSignal
  | rtSigtimedwait (time32 : Bool)
deriving DecidableEq, Repr

/-- What is printed; `i` is the argument that it is of. -/
inductive Tok
  /-- print_fields.h, `tprint_arg_next` -/
  | sep
  /-- a number, its name or its flags -/
  | num (i v : Nat)
  /-- a number of type int -/
  | int (i : Nat) (v : Int)
  /-- an address, or the name of a handler -/
  | addr (i v : Nat)
  /-- a set of signals -/
  | set (i mask : Nat)
  /-- what a signal does: the handler, the set of signals, the flags, and what is called to return -/
  | act (i handler mask flags : Nat) (restorer : Option Nat)
  /-- a siginfo -/
  | info (i : Nat) (l : List Nat)
  /-- a timespec -/
  | time (i : Nat) (l : List Nat)
deriving DecidableEq, Repr

/-- What is shown next to the result (`tcp->auxstr`). -/
inductive Aux
  | none
  | oldMask (v : Nat)
  | mask (v : Nat)
  | handler (v : Nat)
  | signal (v : Int)
deriving DecidableEq, Repr

/-- `printaddr` and src/signal.c:94-103 `print_sa_handler`, which have all the 64 bits. -/
def addr (c : Call) (i : Nat) : Tok := .addr i (c.arg i)

/-- The macro PRINT_VAL_U of an argument (src/print_fields.h). -/
def long (c : Call) (i : Nat) : Tok := .num i (c.arg i)

/-- An argument that is passed as unsigned int, as to `printxval` and `printflags`. -/
def uint (c : Call) (i : Nat) : Tok := .num i (c.arg i % 2 ^ 32)

/-- An argument that is passed as int, as to `printsignal` (src/signal.c:235-246), `printpid` (src/pidns.c:549-554) and
`printfd`. -/
def int (c : Call) (i : Nat) : Tok := .int i (toInt (c.arg i))

/-- ucopy.c, `umoven_or_printaddr`: the bytes, if they are to be shown and can be read. -/
def fetch (ph : Phase) (c : Call) (i n : Nat) : Option (List Nat) :=
  if c.arg i = 0 ∨ c.verbose = false ∨ (ph = .exiting ∧ c.failed = true) then none else umoven (memAt ph c) (c.arg i) n

/-- src/signal.c:248-264, `print_sigset_addr_len_limit`; NSIG_BYTES is 8. -/
def sigset (ph : Phase) (c : Call) (i len min : Nat) : Tok :=
  if len < min ∨ 8 < len then addr c i
  else
    match fetch ph c i len with
    | some l => .set i (number l)
    | none => addr c i

/-- src/signal.c:214-227, `sprint_old_sigmask_val`: the mask is an unsigned long, of which `w` bytes are looked at. -/
def oldMask (w mask : Nat) : Nat := mask % 2 ^ 64 % 256 ^ w

/-- src/signal.c:316-357, `decode_old_sigaction`: four words. -/
def oldAction (ph : Phase) (w : Nat) (c : Call) (i : Nat) : Tok :=
  match fetch ph c i (4 * w) with
  | none => addr c i
  | some l =>
    let handler := number (l.take w)
    let mask := number ((l.drop w).take w)
    let flags := number ((l.drop (2 * w)).take w)
    let restorer := number ((l.drop (3 * w)).take w)
    .act i handler (oldMask w mask) flags (if flags.testBit 26 then some restorer else none)

/-- src/signal.c:542-566, the size of `struct new_sigaction` and of `struct new_sigaction32`: three words, and an array of
NSIG / sizeof(long) = 65 / 8 = 8 numbers of 8 bytes (of 16 numbers of 4 bytes). -/
def newSize (w : Nat) : Nat := 3 * w + 64

/-- src/signal.c:568-622, `decode_new_sigaction`; of the array, NSIG_BYTES = 8 bytes are looked at (src/signal.c:163). -/
def newAction (ph : Phase) (w : Nat) (c : Call) (i : Nat) : Tok :=
  match fetch ph c i (newSize w) with
  | none => addr c i
  | some l =>
    let handler := number (l.take w)
    let flags := number ((l.drop w).take w)
    let restorer := number ((l.drop (2 * w)).take w)
    let mask := number ((l.drop (3 * w)).take 8)
    .act i handler mask flags (if flags.testBit 26 then some restorer else none)

/-- src/printsiginfo.c:307-314, `printsiginfo_at`: 128 bytes. -/
def info (ph : Phase) (c : Call) (i : Nat) : Tok :=
  match fetch ph c i 128 with
  | some l => .info i l
  | none => addr c i

/-- src/print_timespec.h, `print_timespec32`, `sprint_timespec32` and those of 64 bits. -/
def timespec (ph : Phase) (c : Call) (i n : Nat) : Tok :=
  match fetch ph c i n with
  | some l => .time i l
  | none => addr c i

/-- The size of a timespec: kernel_old_timespec of 32 bits, or kernel_timespec64. -/
def timeSize (time32 : Bool) : Nat := if time32 then 8 else 16

/-- What is shown on entering, `w` being the size of a word and `n` the number of arguments of the call (`n_args`). -/
def enter (w n : Nat) (s : Sys) (c : Call) : List Tok :=
  match s with
  -- src/signal.c:470-481
  | .kill => [int c 0, .sep, int c 1]
  -- src/signal.c:483-493
  | .tkill => [int c 0, .sep, int c 1]
  -- src/signal.c:495-509
  | .tgkill => [int c 0, .sep, int c 1, .sep, int c 2]
  -- src/signal.c:282-286
  | .ssetmask => [.set 0 (oldMask w (c.arg 0 % 2 ^ 32))]
  -- src/signal.c:400-407
  | .sgetmask => []
  -- src/signal.c:383-392
  | .signal => [int c 0, .sep, addr c 1]
  -- src/signal.c:359-376
  | .sigaction => [int c 0, .sep, oldAction .entering w c 1, .sep]
  -- src/signal.c:409-420
  | .sigsuspend => [.set (n - 1) (oldMask w (c.arg (n - 1)))]
  -- src/signal.c:453-463
  | .sigprocmask => [uint c 0, .sep, sigset .entering c 1 w w, .sep]
  -- src/signal.c:511-518
  | .sigpending => []
  -- src/signal.c:520-531
  | .rtSigprocmask => [uint c 0, .sep, sigset .entering c 1 (c.arg 3) w, .sep]
  -- src/signal.c:624-633
  | .rtSigaction => [int c 0, .sep, newAction .entering w c 1, .sep]
  -- src/signal.c:661-678
  | .rtSigpending => []
  -- src/signal.c:680-690
  | .rtSigsuspend => [sigset .entering c 0 (c.arg 1) w, .sep, long c 1]
  -- src/signal.c:692-714
  | .rtSigqueueinfo => [int c 0, .sep, int c 1, .sep, info .entering c 2]
  -- src/signal.c:716-730
  | .rtTgsigqueueinfo => [int c 0, .sep, int c 1, .sep, int c 2, .sep, info .entering c 3]
  -- src/signal.c:734-748
  | .pidfdSendSignal => [int c 0, .sep, int c 1, .sep, info .entering c 2, .sep, uint c 3]
  -- src/signal.c:750-778
  | .rtSigtimedwait t =>
    [sigset .entering c 0 (c.arg 3) w, .sep] ++
    if ¬ (c.arg 1 ≠ 0 ∧ c.verbose = true) then [addr c 1, .sep, timespec .entering c 2 (timeSize t), .sep, long c 3] else []

/-- What is shown on exiting.  The timespec of rt_sigtimedwait is the text that was made on entering (src/signal.c:776-777). -/
def exit (w : Nat) (s : Sys) (c : Call) : List Tok :=
  match s with
  | .kill => []
  | .tkill => []
  | .tgkill => []
  | .ssetmask => []
  | .sgetmask => []
  | .signal => []
  -- src/signal.c:377-379
  | .sigaction => [oldAction .exiting w c 2]
  | .sigsuspend => []
  -- src/signal.c:464-467
  | .sigprocmask => [sigset .exiting c 2 w w]
  -- src/signal.c:511-518
  | .sigpending => [sigset .exiting c 0 w w]
  -- src/signal.c:532-538
  | .rtSigprocmask => [sigset .exiting c 2 (c.arg 3) w, .sep, long c 3]
  -- src/signal.c:634-657
  | .rtSigaction => [newAction .exiting w c 2, .sep, long c 3]
  -- src/signal.c:661-678
  | .rtSigpending => [sigset .exiting c 0 (c.arg 1) 1, .sep, long c 1]
  | .rtSigsuspend => []
  | .rtSigqueueinfo => []
  | .rtTgsigqueueinfo => []
  | .pidfdSendSignal => []
  -- src/signal.c:780-791
  | .rtSigtimedwait t =>
    if c.arg 1 ≠ 0 ∧ c.verbose = true then
      [info .exiting c 1, .sep, timespec .entering c 2 (timeSize t), .sep, long c 3]
    else []

/-- What is shown next to the result; src/signal.c:88-92 `get_sa_handler_str` has no name for most handlers, and
src/signal.c:105-124 `signame` none for what is no signal: then nothing is shown. -/
def aux (w : Nat) (s : Sys) (c : Call) : Aux :=
  match s with
  -- src/signal.c:287-291
  | .ssetmask => if c.failed = false then .oldMask (oldMask w (c.rval % 2 ^ 32)) else .none
  -- src/signal.c:400-407
  | .sgetmask => if c.failed = false then .mask (oldMask w c.rval) else .none
  -- src/signal.c:393-396
  | .signal => if c.failed = false then .handler c.rval else .none
  -- src/signal.c:793-796
  | .rtSigtimedwait _ => if c.failed = false ∧ c.rval ≠ 0 then .signal (toInt c.rval) else .none
  | _ => .none

end Strace.Sigc
