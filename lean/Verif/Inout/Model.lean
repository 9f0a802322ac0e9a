/-!
# Model of calls that read and write structures of their caller

For forty calls on timers, clocks, signals, limits, scheduling, children and the system: which arguments each decoder
shows when the call begins and which when it has ended, and from which memory.

Simplifications: x86-64, 64-bit programs and 64-bit times; how the members of a structure are printed belongs to the
printers, so that what is shown of a structure is the bytes in which the members shown lie.
-/
namespace Strace.Inout

/-- Memory of the traced process at some time. -/
abbrev Mem := Nat → Option Nat

/-- ucopy.c:291-334, `umoven`: `n` bytes from address `a` on, if all of them can be read (C19). -/
def umoven (m : Mem) (a : Nat) : Nat → Option (List Nat)
  | 0 => some []
  | n + 1 =>
    match m a, umoven m (a + 1) n with
    | some b, some l => some (b :: l)
    | _, _ => none

/-- What is shown of an argument: its value; an address; data that it points to. -/
inductive Disp
  | num (v : Nat)
  | addr (a : Nat)
  | data (l : List Nat)
deriving DecidableEq, Repr

/-- What a decoder prints for an argument. -/
inductive Item
  /-- the argument itself, or its path, name, set of flags -/
  | reg (i : Nat)
  /-- `printaddr` -/
  | ptr (i : Nat)
  /-- `umove_or_printaddr` of `n` bytes, of which the first `k` are shown -/
  | obj (i n k : Nat)
  /-- the same when the error has been cleared (syscall.c:1061-1074) -/
  | cleared (i n : Nat)
  /-- `print_sigset_addr_len_limit` (signal.c:248-264): the length is argument `l`, at least `min` -/
  | set (i l min : Nat)
  /-- `printsiginfo_at` after waitid: nothing but si_signo if that is 0 (printsiginfo.c:286-306) -/
  | child (i : Nat)
  /-- text made when the call began (signal.c:776-777, print_timespec.h:102-118) -/
  | kept (i n : Nat)
deriving DecidableEq, Repr

/-- The calls. -/
inductive Call
  | gettimeofday | settimeofday | nanosleep | getitimer | setitimer | adjtimex | clock_settime | clock_gettime
  | clock_nanosleep | clock_adjtime | timer_create | timer_settime | timer_gettime | timerfd_settime | timerfd_gettime
  | rt_sigprocmask | rt_sigaction | rt_sigpending | rt_sigsuspend | rt_sigqueueinfo | rt_tgsigqueueinfo | pidfd_send_signal
  | rt_sigtimedwait | sigaltstack | getcpu | get_robust_list | sysinfo | uname | times | sched_setscheduler | sched_getparam
  | sched_setparam | sched_rr_get_interval | getrlimit | setrlimit | prlimit64 | getrusage | mq_getsetattr | io_setup
  | stat | fstat | newfstatat | statfs | wait4 | waitid
deriving DecidableEq, Repr

/-- `tcp->u_rval` and `tcp->u_error`. -/
structure Ret where
  rval : Int
  err : Nat

/-- syscall.c:1046-1059, `is_erestart`; ERESTARTSYS, ERESTARTNOINTR, ERESTARTNOHAND, ERESTART_RESTARTBLOCK. -/
def isErestart (e : Nat) : Bool := e == 512 || e == 513 || e == 514 || e == 516

/-- Arguments, and `verbose(tcp)`. -/
structure In where
  a : Nat → Nat
  verbose : Bool

/-- What is printed when the call begins. Decoders that return RVAL_DECODED print all of it then. -/
def entry (c : Call) (x : In) : List Item :=
  match c with
  /- time.c:32-43 -/
  | .gettimeofday => []
  /- time.c:45-55, 17-30 -/
  | .settimeofday => [.obj 0 16 16, .obj 1 8 8]
  /- time.c:91-94 -/
  | .nanosleep => [.obj 0 16 16]
  /- time.c:133-136 -/
  | .getitimer => [.reg 0]
  /- time.c:161-168 -/
  | .setitimer => [.reg 0, .obj 1 32 32]
  /- time.c:217-227 -/
  | .adjtimex => []
  /- time.c:270-281 -/
  | .clock_settime => [.reg 0, .obj 1 16 16]
  /- time.c:298-301 -/
  | .clock_gettime => [.reg 0]
  /- time.c:324-335 -/
  | .clock_nanosleep => [.reg 0, .reg 1, .obj 2 16 16]
  /- time.c:368-372 -/
  | .clock_adjtime => [.reg 0]
  /- time.c:399-406; sigevent.h:12-25: without the padding at the end -/
  | .timer_create => [.reg 0, .obj 1 32 32]
  /- time.c:417-428 -/
  | .timer_settime => [.reg 0, .reg 1, .obj 2 32 32]
  /- time.c:451-454 -/
  | .timer_gettime => [.reg 0]
  /- time.c:491-502 -/
  | .timerfd_settime => [.reg 0, .reg 1, .obj 2 32 32]
  /- time.c:525-528 -/
  | .timerfd_gettime => [.reg 0]
  /- signal.c:523-530 -/
  | .rt_sigprocmask => [.reg 0, .set 1 3 8]
  /- signal.c:626-633; 543-558: the structure ends with `sa_mask[NSIG / sizeof(long)]`, 8 words, and has 88 bytes -/
  | .rt_sigaction => [.reg 0, .obj 1 88 32]
  /- signal.c:661-678 -/
  | .rt_sigpending => []
  /- signal.c:680-690 -/
  | .rt_sigsuspend => [.set 0 1 8, .reg 1]
  /- signal.c:704-714, 692-702; printsiginfo.c:307-314 -/
  | .rt_sigqueueinfo => [.reg 0, .reg 1, .obj 2 128 128]
  /- signal.c:716-730 -/
  | .rt_tgsigqueueinfo => [.reg 0, .reg 1, .reg 2, .obj 3 128 128]
  /- signal.c:734-748 -/
  | .pidfd_send_signal => [.reg 0, .reg 1, .obj 2 128 128, .reg 3]
  /- signal.c:755-778 -/
  | .rt_sigtimedwait =>
    if x.a 1 ≠ 0 ∧ x.verbose = true then [.set 0 3 8] else [.set 0 3 8, .ptr 1, .obj 2 16 16, .reg 3]
  /- sigaltstack.c:43-46 -/
  | .sigaltstack => [.obj 0 24 24]
  /- getcpu.c:10-25 -/
  | .getcpu => []
  /- get_robust_list.c:13-16 -/
  | .get_robust_list => [.reg 0]
  /- sysinfo.c:26-27; uname.c:20-21; times.c:25 -/
  | .sysinfo | .uname | .times => []
  /- sched.c:31-45 -/
  | .sched_setscheduler => [.reg 0, .reg 1, .obj 2 4 4]
  /- sched.c:49-52 -/
  | .sched_getparam => [.reg 0]
  /- sched.c:60-70 -/
  | .sched_setparam => [.reg 0, .obj 1 4 4]
  /- sched.c:84-87 -/
  | .sched_rr_get_interval => [.reg 0]
  /- resource.c:124-127 -/
  | .getrlimit => [.reg 0]
  /- resource.c:135-145, 42-57 -/
  | .setrlimit => [.reg 0, .obj 1 16 16]
  /- resource.c:149-160 -/
  | .prlimit64 => [.reg 0, .reg 1, .obj 2 16 16]
  /- resource.c:172-175 -/
  | .getrusage => [.reg 0]
  /- mq.c:132-139 -/
  | .mq_getsetattr => [.reg 0, .obj 1 64 64]
  /- aio.c:23-27 -/
  | .io_setup => [.reg 0]
  /- stat.c:23-26, 36-39; statfs.c:12-15 -/
  | .stat | .fstat | .statfs => [.reg 0]
  /- stat.c:49-56 -/
  | .newfstatat => [.reg 0, .reg 1]
  /- wait.c:92-95 -/
  | .wait4 => [.reg 0]
  /- wait.c:147-168 -/
  | .waitid => [.reg 0, .reg 1]

/-- What is printed when it has ended. -/
def exit (c : Call) (x : In) (r : Ret) : List Item :=
  match c with
  /- time.c:34-41 -/
  | .gettimeofday => [.obj 0 16 16, .obj 1 8 8]
  /- time.c:96-110 -/
  | .nanosleep => if isErestart r.err = true then [.cleared 1 16] else [.ptr 1]
  /- time.c:137-140 -/
  | .getitimer => [.obj 1 32 32]
  /- time.c:169-172 -/
  | .setitimer => [.obj 2 32 32]
  /- time.c:219-221, 197-206 -/
  | .adjtimex => [.obj 0 208 208]
  /- time.c:302-305 -/
  | .clock_gettime => [.obj 1 16 16]
  /- time.c:336-349 -/
  | .clock_nanosleep => if x.a 1 = 0 ∧ isErestart r.err = true then [.cleared 3 16] else [.ptr 3]
  /- time.c:373-375 -/
  | .clock_adjtime => [.obj 1 208 208]
  /- time.c:407-410 -/
  | .timer_create => [.obj 2 4 4]
  /- time.c:429-432 -/
  | .timer_settime => [.obj 3 32 32]
  /- time.c:455-458 -/
  | .timer_gettime => [.obj 1 32 32]
  /- time.c:503-506 -/
  | .timerfd_settime => [.obj 3 32 32]
  /- time.c:529-532 -/
  | .timerfd_gettime => [.obj 1 32 32]
  /- signal.c:531-538 -/
  | .rt_sigprocmask => [.set 2 3 8, .reg 3]
  /- signal.c:634-657 -/
  | .rt_sigaction => [.obj 2 88 32, .reg 3]
  /- signal.c:663-676 -/
  | .rt_sigpending => [.set 0 1 1, .reg 1]
  /- signal.c:779-791 -/
  | .rt_sigtimedwait => if x.a 1 ≠ 0 ∧ x.verbose = true then [.obj 1 128 128, .kept 2 16, .reg 3] else []
  /- sigaltstack.c:47-50 -/
  | .sigaltstack => [.obj 1 24 24]
  /- getcpu.c:12-23 -/
  | .getcpu => [.obj 0 4 4, .obj 1 4 4, .ptr 2]
  /- get_robust_list.c:17-24 -/
  | .get_robust_list => [.obj 1 8 8, .obj 2 8 8]
  /- sysinfo.c:29-56 -/
  | .sysinfo => [.obj 0 112 112]
  /- uname.c:23-45 -/
  | .uname => [.obj 0 390 390]
  /- times.c:25-35 -/
  | .times => [.obj 0 32 32]
  /- sched.c:53-56 -/
  | .sched_getparam => [.obj 1 4 4]
  /- sched.c:88-94 -/
  | .sched_rr_get_interval => if r.err ≠ 0 then [.ptr 1] else [.obj 1 16 16]
  /- resource.c:128-131 -/
  | .getrlimit => [.obj 1 16 16]
  /- resource.c:161-164 -/
  | .prlimit64 => [.obj 3 16 16]
  /- resource.c:176-179 -/
  | .getrusage => [.obj 1 144 144]
  /- mq.c:140-143 -/
  | .mq_getsetattr => [.obj 2 64 64]
  /- aio.c:28-31 -/
  | .io_setup => [.obj 1 8 8]
  /- stat.c:27-30, 40-43 -/
  | .stat | .fstat => [.obj 1 144 144]
  /- stat.c:57-64 -/
  | .newfstatat => [.obj 2 144 144, .reg 3]
  /- statfs.c:16-19 -/
  | .statfs => [.obj 1 120 120]
  /- wait.c:96-118 -/
  | .wait4 =>
    [if r.rval = 0 then .ptr 1 else .obj 1 4 4, .reg 2, if r.rval > 0 then .obj 3 144 144 else .ptr 3]
  /- wait.c:169-180 -/
  | .waitid => [.child 2, .reg 3, .obj 4 144 144]
  | _ => []

/-- util.c:1732-1739, 1749-1757: `umove_or_printaddr`; `ok` is false when the call has ended with an error. -/
def fetch (m : Mem) (verbose ok : Bool) (a n k : Nat) : Disp :=
  if a ≠ 0 ∧ verbose = true ∧ ok = true then
    match umoven m a n with
    | some l => .data (l.take k)
    | none => .addr a
  else .addr a

/-- What an item shows.  `m` is the memory when it is printed, `before` when the call began. -/
def disp (x : In) (before m : Mem) (ok : Bool) : Item → Nat × Disp
  | .reg i => (i, .num (x.a i))
  | .ptr i => (i, .addr (x.a i))
  | .obj i n k => (i, fetch m x.verbose ok (x.a i) n k)
  | .cleared i n => (i, fetch m x.verbose true (x.a i) n n)
  | .set i l min =>
    (i, if x.a l < min ∨ x.a l > 8 then .addr (x.a i) else fetch m x.verbose ok (x.a i) (x.a l) (x.a l))
  | .child i =>
    (i, match fetch m x.verbose ok (x.a i) 128 128 with
      | .data l => .data (l.take (if l.take 4 = [0, 0, 0, 0] then 4 else 48))
      | d => d)
  | .kept i n => (i, fetch before x.verbose true (x.a i) n n)

/-- A whole call: the arguments as they are shown. -/
def shown (c : Call) (x : In) (before after : Mem) (r : Ret) : List (Nat × Disp) :=
  (entry c x).map (disp x before before true) ++ (exit c x r).map (disp x before after (r.err == 0))

end Strace.Inout
