/-!
# The delay timer: src/delay.c, src/strace.c (restart_delayed_tcbs, timer_sighandler, next_event)

Times are nanoseconds of CLOCK_MONOTONIC; that `ts_add` and `ts_cmp` compute with them is C14.  The clock may advance
between any two steps, in particular between reading the clock and reading the timer in `delay_tcb`.

The POSIX timer (contract of the kernel): armed for an absolute time it expires once when the clock reaches that time,
disarms, and makes the signal pending; `timer_gettime` gives the time left, 0 if disarmed; arming for a time in the
past expires at once.  What arming does to a notification still pending is unspecified in POSIX; `keeps` says whether
it is kept.
-/
namespace Strace.Delay

/-- a delayed tracee: number and `delay_expiration_time` -/
structure Held where
  id : Nat
  deadline : Nat
  deriving DecidableEq, Repr

structure St where
  now : Nat
  /-- the time the timer is armed for -/
  exp : Option Nat
  /-- the signal is pending; it is blocked except in `next_event` -/
  pending : Bool
  /-- `delay_timer_is_armed` -/
  armed : Bool
  /-- the tracees with `TCB_DELAYED` -/
  held : List Held
  /-- those that were let go, with the time -/
  freed : List (Held × Nat)

/-- the clock reaches the expiration time (kernel) -/
def St.fire (st : St) : St :=
  match st.exp with
  | none => st
  | some e => if e ≤ st.now then { st with exp := none, pending := true } else st

/-- time passes -/
def St.tick (st : St) (d : Nat) : St := ({ st with now := st.now + d } : St).fire

/-- `arm_delay_timer`, src/delay.c:82-98 -/
def St.arm (keeps : Bool) (st : St) (t : Nat) : St :=
  ({ st with exp := some t, pending := keeps && st.pending, armed := true } : St).fire

/-- what `timer_gettime` gives -/
def St.left (st : St) : Nat :=
  match st.exp with
  | none => 0
  | some e => e - st.now

/-- `delay_tcb`, src/delay.c:100-135; `gap` passes between reading the clock and reading the timer.  A timer not yet
created is one that is not armed. -/
def St.delay (keeps : Bool) (st : St) (i diff gap : Nat) : St :=
  let st' := ({ st with held := ⟨i, st.now + diff⟩ :: st.held } : St).tick gap
  if st'.left ≠ 0 ∧ diff > st'.left then st' else st'.arm keeps (st.now + diff)

/-- the tracee to be let go next among those that have to wait, src/strace.c:4192-4197 -/
def nextOf (now : Nat) : Option Held → List Held → Option Held
  | n, [] => n
  | n, h :: l =>
    if now > h.deadline then nextOf now n l
    else
      match n with
      | none => nextOf now (some h) l
      | some m => if m.deadline > h.deadline then nextOf now (some h) l else nextOf now (some m) l

/-- `restart_delayed_tcbs`, src/strace.c:4175-4205 -/
def St.restart (keeps : Bool) (st : St) : St :=
  let st' : St := { st with
    held := st.held.filter fun h => !decide (st.now > h.deadline)
    freed := st.freed ++ (st.held.filter fun h => decide (st.now > h.deadline)).map fun h => (h, st.now) }
  match nextOf st.now none st.held with
  | none => st'
  | some n => st'.arm keeps n.deadline

/-- the signal is delivered if `next_event` lets it: src/strace.c:3689-3722, `timer_sighandler` 4212-4226 -/
def St.wait (keeps : Bool) (st : St) : St :=
  if st.armed = true ∧ st.pending = true then
    ({ st with pending := false, armed := false } : St).restart keeps
  else st

/-- a tracee ends and is dropped -/
def St.vanish (st : St) (i : Nat) : St := { st with held := st.held.filter fun h => !decide (h.id = i) }

inductive Op
  | tick (d : Nat)
  | delay (i diff gap : Nat)
  | wait
  | vanish (i : Nat)
  deriving DecidableEq, Repr

def St.step (keeps : Bool) (st : St) : Op → St
  | .tick d => st.tick d
  | .delay i diff gap => st.delay keeps i diff gap
  | .wait => st.wait keeps
  | .vanish i => st.vanish i

def St.run (keeps : Bool) (st : St) (l : List Op) : St := l.foldl (St.step keeps) st

def St.init (now : Nat) : St := ⟨now, none, false, false, [], []⟩

end Strace.Delay
