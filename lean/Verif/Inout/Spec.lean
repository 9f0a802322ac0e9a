import Verif.Inout.Model
/-!
# What the calls read and write

From the manual pages and the interface of the kernel (x86-64): the structures each call reads, and those it has written
when it ends.  Sizes are those of the members (without padding at the end).
-/
namespace Strace.Inout.Spec

/-- The bytes `data` are in memory from address `a` on. -/
def Holds (m : Mem) (a : Nat) (data : List Nat) : Prop :=
  ∀ i, i < data.length → m (a + i) = some (data.getD i 0)

/-- The number of arguments. -/
def nargs : Call → Nat
  | .gettimeofday => 2 | .settimeofday => 2 | .nanosleep => 2 | .getitimer => 2 | .setitimer => 3 | .adjtimex => 1
  | .clock_settime => 2 | .clock_gettime => 2 | .clock_nanosleep => 4 | .clock_adjtime => 2 | .timer_create => 3
  | .timer_settime => 4 | .timer_gettime => 2 | .timerfd_settime => 4 | .timerfd_gettime => 2 | .rt_sigprocmask => 4
  | .rt_sigaction => 4 | .rt_sigpending => 2 | .rt_sigsuspend => 2 | .rt_sigqueueinfo => 3 | .rt_tgsigqueueinfo => 4
  | .pidfd_send_signal => 4 | .rt_sigtimedwait => 4 | .sigaltstack => 2 | .getcpu => 3 | .get_robust_list => 3
  | .sysinfo => 1 | .uname => 1 | .times => 1 | .sched_setscheduler => 3 | .sched_getparam => 2 | .sched_setparam => 2
  | .sched_rr_get_interval => 2 | .getrlimit => 2 | .setrlimit => 2 | .prlimit64 => 4 | .getrusage => 2
  | .mq_getsetattr => 3 | .io_setup => 2 | .stat => 2 | .fstat => 2 | .newfstatat => 4 | .statfs => 2 | .wait4 => 4
  | .waitid => 5

/-- The structures that a call reads: argument and size. -/
def inputs : Call → List (Nat × Nat)
  | .settimeofday => [(0, 16), (1, 8)]
  | .nanosleep => [(0, 16)]
  | .setitimer => [(1, 32)]
  | .adjtimex => [(0, 208)]
  | .clock_settime => [(1, 16)]
  | .clock_nanosleep => [(2, 16)]
  | .clock_adjtime => [(1, 208)]
  | .timer_create => [(1, 32)]
  | .timer_settime => [(2, 32)]
  | .timerfd_settime => [(2, 32)]
  | .rt_sigprocmask => [(1, 8)]
  | .rt_sigaction => [(1, 32)]
  | .rt_sigsuspend => [(0, 8)]
  | .rt_sigqueueinfo => [(2, 128)]
  | .rt_tgsigqueueinfo => [(3, 128)]
  | .pidfd_send_signal => [(2, 128)]
  | .rt_sigtimedwait => [(0, 8), (2, 16)]
  | .sigaltstack => [(0, 24)]
  | .sched_setscheduler => [(2, 4)]
  | .sched_setparam => [(1, 4)]
  | .setrlimit => [(1, 16)]
  | .prlimit64 => [(2, 16)]
  | .mq_getsetattr => [(1, 64)]
  | _ => []

/-- The size of the signal set is what the kernel accepts. -/
def Accepts (c : Call) (a : Nat → Nat) : Prop :=
  match c with
  | .rt_sigprocmask => a 3 = 8
  | .rt_sigtimedwait => a 3 = 8
  | .rt_sigsuspend => a 1 = 8
  | .rt_sigpending => 1 ≤ a 1 ∧ a 1 ≤ 8
  | _ => True

/-- The structures that a call without an error has written: argument and size.  `found`: a child has been waited for.
waitid writes the members of siginfo_t up to si_status, and the usage only if there was a child. -/
def onSuccess (c : Call) (a : Nat → Nat) (found : Bool) : List (Nat × Nat) :=
  match c with
  | .gettimeofday => [(0, 16), (1, 8)]
  | .getitimer => [(1, 32)]
  | .setitimer => [(2, 32)]
  | .adjtimex => [(0, 208)]
  | .clock_gettime => [(1, 16)]
  | .clock_adjtime => [(1, 208)]
  | .timer_create => [(2, 4)]
  | .timer_settime => [(3, 32)]
  | .timer_gettime => [(1, 32)]
  | .timerfd_settime => [(3, 32)]
  | .timerfd_gettime => [(1, 32)]
  | .rt_sigprocmask => [(2, 8)]
  | .rt_sigaction => [(2, 32)]
  | .rt_sigpending => [(0, a 1)]
  | .rt_sigtimedwait => [(1, 128)]
  | .sigaltstack => [(1, 24)]
  | .getcpu => [(0, 4), (1, 4)]
  | .get_robust_list => [(1, 8), (2, 8)]
  | .sysinfo => [(0, 112)]
  | .uname => [(0, 390)]
  | .times => [(0, 32)]
  | .sched_getparam => [(1, 4)]
  | .sched_rr_get_interval => [(1, 16)]
  | .getrlimit => [(1, 16)]
  | .prlimit64 => [(3, 16)]
  | .getrusage => [(1, 144)]
  | .mq_getsetattr => [(2, 64)]
  | .io_setup => [(1, 8)]
  | .stat => [(1, 144)]
  | .fstat => [(1, 144)]
  | .newfstatat => [(2, 144)]
  | .statfs => [(1, 120)]
  | .wait4 => if found then [(1, 4), (3, 144)] else []
  | .waitid => if found then [(2, 28), (4, 144)] else [(2, 28)]
  | _ => []

/-- What has been written: sleeps write the rest of the time when they have been interrupted (ERESTART_RESTARTBLOCK, 516), and
clock_nanosleep not if the time was absolute (TIMER_ABSTIME, 1; the flags are an int). -/
def written (c : Call) (a : Nat → Nat) (r : Ret) (found : Bool) : List (Nat × Nat) :=
  if r.err = 0 then onSuccess c a found
  else
    match c with
    | .nanosleep => if r.err = 516 then [(1, 16)] else []
    | .clock_nanosleep => if r.err = 516 ∧ a 1 % 2 = 0 then [(3, 16)] else []
    | _ => []

/-- Results: −1 with an error; sleeps end only by the time or a signal; the result of wait4 tells whether a child was found;
a sleep is restarted by no other way than its restart block. -/
def Legal (c : Call) (r : Ret) (found : Bool) : Prop :=
  (r.err ≠ 0 → r.rval = -1) ∧ (r.err = 0 → 0 ≤ r.rval)
    ∧ (c = .wait4 → r.err = 0 → (found = true ↔ 0 < r.rval))
    ∧ (c = .nanosleep ∨ c = .clock_nanosleep → r.err ≠ 512 ∧ r.err ≠ 513 ∧ r.err ≠ 514)

end Strace.Inout.Spec
