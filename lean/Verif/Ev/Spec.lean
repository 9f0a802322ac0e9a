import Verif.Ev.Model
/-!
What ptrace(2) and wait(2) say: how a stop of a tracee is reported, and how a tracee runs system calls
under a seccomp filter.
-/
namespace Strace.Ev

/-- what can happen to a tracee -/
inductive Stop
  | exited (code : Nat)
  | killed (sig : Nat) (core : Bool)
  /-- syscall entry or exit stop -/
  | syscall
  /-- a signal is about to be delivered -/
  | signal (sig : Nat)
  /-- stopped by a stopping signal -/
  | group (sig : Nat)
  /-- PTRACE_INTERRUPT, or the end of a group stop -/
  | trap
  | exec
  | exitEv
  | seccomp
  /-- fork, vfork, clone, vfork done -/
  | child (ev : Nat)
  deriving DecidableEq, Repr

/-- the stopping signals -/
def stopping (sig : Nat) : Prop := sig = 19 ∨ sig = 20 ∨ sig = 21 ∨ sig = 22

/-- the numbers are in range -/
def Stop.ok : Stop → Prop
  | .exited code => code < 256
  | .killed sig _ => 0 < sig ∧ sig ≤ 64
  | .signal sig => 0 < sig ∧ sig ≤ 64
  | .group sig => stopping sig
  | .child ev => ev = 1 ∨ ev = 2 ∨ ev = 3 ∨ ev = 5
  | _ => True

/-- the status word `wait4` returns, with `PTRACE_O_TRACESYSGOOD` -/
def Stop.status (seize : Bool) : Stop → Nat
  | .exited code => code * 256
  | .killed sig core => sig + (if core then 128 else 0)
  | .syscall => 127 + (5 + 128) * 256
  | .signal sig => 127 + sig * 256
  | .group sig => 127 + sig * 256 + (if seize then 128 * 65536 else 0)
  | .trap => 127 + 5 * 256 + 128 * 65536
  | .exec => 127 + 5 * 256 + 4 * 65536
  | .exitEv => 127 + 5 * 256 + 6 * 65536
  | .seccomp => 127 + 5 * 256 + 7 * 65536
  | .child ev => 127 + 5 * 256 + ev * 65536

/-- `PTRACE_GETSIGINFO` fails in a group stop only -/
def Stop.noInfo : Stop → Bool
  | .group _ => true
  | _ => false

/-- the event each stop is -/
def Stop.event (seize ignore : Bool) : Stop → TE
  | .exited _ => .exited
  | .killed _ _ => .signalled
  | .syscall => .syscallStop
  | .signal sig => if sig = 19 ∧ ignore = true then .restart else .sigDelivery
  | .group sig => if seize = false ∧ sig = 19 ∧ ignore = true then .restart else .groupStop
  | .trap => .restart
  | .exec => .beforeExecve
  | .exitEv => .beforeExit
  | .seccomp => .seccomp
  | .child _ => .restart

/-! ### Signals -/

/-- the signal a tracee resumes with: its own, and strace's own SIGSTOP - the first one - is swallowed -/
def expectedSig (seize : Bool) : Bool → List Stop → List Nat
  | _, [] => []
  | ignore, .signal sig :: l =>
    if sig = 19 ∧ ignore = true then 0 :: expectedSig seize false l
    else sig :: expectedSig seize ignore l
  | ignore, .group sig :: l =>
    if seize = true then 0 :: expectedSig seize ignore l
    else if sig = 19 ∧ ignore = true then 0 :: expectedSig seize false l
    else sig :: expectedSig seize ignore l
  | ignore, _ :: l => 0 :: expectedSig seize ignore l

/-! ### A tracee under a seccomp filter -/

/-- a system call the tracee makes -/
structure Call where
  n : Nat
  pers : Nat
  /-- events inside the call: fork, exec, ... -/
  inner : List Stop
  /-- delays injected on entry and on exit -/
  delayEnter : Bool
  delayExit : Bool
  /-- signal injected on entry -/
  sig : Nat
  /-- what the decoder returns -/
  res : Nat
  /-- filtered out by the options -/
  filtered : Bool

/-- what the tracee does: a call, or a stop outside calls -/
inductive Act
  | call (k : Call)
  | signal (sig : Nat)
  | group (sig : Nat)
  | trap

/-- what strace should see of the calls: all of them until it knows of the filter, then those the filter
stops; each as one entry followed by one exit -/
def expectedLog (F : Nat → Nat → Bool) : Bool → List Act → List Handled
  | _, [] => []
  | known, .call k :: l =>
    (if known = false ∨ F k.pers k.n = true then [.entry k.n, .exit k.n] else []) ++
      expectedLog F (known || F k.pers k.n) l
  | known, _ :: l => expectedLog F known l

/-- a tracee on the run: strace's record, the request it was restarted with, what strace did so far -/
structure Run where
  t : Tcb
  op : ROp
  log : List Handled

/-- the tracee stops and strace restarts it, at once or when the delay is over -/
def hit (c : Cfg) (r : Run) (st : Stop) (s : Sys) : Option Run :=
  match deliver c false r.t none s (st.status c.seize) st.noInfo with
  | ⟨.resumed op _, t, log⟩ => some ⟨t, op, r.log ++ log⟩
  | ⟨.held, t, log⟩ =>
    match restartDelayed c t.pers t s with
    | ⟨.resumed op _, t', log'⟩ => some ⟨t', op, r.log ++ log ++ log'⟩
    | _ => none
  | _ => none

/-- decoding at the entry -/
def entrySys (k : Call) : Sys := ⟨1, k.res, k.sig, k.delayEnter, k.n, k.pers⟩
/-- decoding at the exit -/
def exitSys (k : Call) : Sys := ⟨if k.filtered = true then 0 else 1, k.res, k.sig, k.delayExit, k.n, k.pers⟩

/-- the kernel reports a seccomp stop if the filter says so -/
def seccompStop (c : Cfg) (F : Nat → Nat → Bool) (k : Call) (r : Run) : Option Run :=
  if F k.pers k.n = true then hit c r .seccomp (entrySys k) else some r

/-- the kernel reports a syscall stop if the tracee was restarted with PTRACE_SYSCALL -/
def syscallStop (c : Cfg) (s : Sys) (r : Run) : Option Run :=
  if r.op = .syscall then hit c r .syscall s else some r

/-- the entry of a call; `kbefore`: seccomp stops come first (Linux before 4.8) -/
def enter (c : Cfg) (kbefore : Bool) (F : Nat → Nat → Bool) (k : Call) (r : Run) : Option Run :=
  if kbefore = true then (seccompStop c F k r).bind (syscallStop c (entrySys k))
  else (syscallStop c (entrySys k) r).bind (seccompStop c F k)

/-- the events inside a call -/
def inside (c : Cfg) (s : Sys) : List Stop → Run → Option Run
  | [], r => some r
  | st :: l, r => (hit c r st s).bind (inside c s l)

/-- one thing the tracee does -/
def act (c : Cfg) (kbefore : Bool) (F : Nat → Nat → Bool) (r : Run) : Act → Option Run
  | .call k => ((enter c kbefore F k r).bind (inside c (entrySys k) k.inner)).bind (syscallStop c (exitSys k))
  | .signal sig => hit c r (.signal sig) ⟨0, 0, 0, false, 0, 0⟩
  | .group sig =>
    if c.seize = true then
      (hit c r (.group sig) ⟨0, 0, 0, false, 0, 0⟩).bind fun r => hit c r .trap ⟨0, 0, 0, false, 0, 0⟩
    else hit c r (.group sig) ⟨0, 0, 0, false, 0, 0⟩
  | .trap => hit c r .trap ⟨0, 0, 0, false, 0, 0⟩

/-- everything the tracee does -/
def acts (c : Cfg) (kbefore : Bool) (F : Nat → Nat → Bool) : Run → List Act → Option Run
  | r, [] => some r
  | r, a :: l => (act c kbefore F r a).bind fun r => acts c kbefore F r l

/-- sensible activity: events inside calls are exec and fork events; exec is always traced by the filter; a
call the filter stops is in strace's table unless nothing happens inside it -/
def Act.ok (c : Cfg) (F : Nat → Nat → Bool) : Act → Prop
  | .call k =>
    (∀ st ∈ k.inner, st = .exec ∨ ∃ ev, st = .child ev ∧ st.ok) ∧
    (.exec ∈ k.inner → F k.pers k.n = true) ∧
    (F k.pers k.n = true →
      (k.n < c.nsys k.pers ∧ c.traced k.pers k.n = true) ∨ (k.inner = [] ∧ k.delayEnter = false))
  | .signal sig => 0 < sig ∧ sig ≤ 64
  | .group sig => stopping sig
  | .trap => True

end Strace.Ev
