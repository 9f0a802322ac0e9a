import Verif.Order.Model
/-!
# C114: --seccomp-bpf is used only where the kernel is known to stop in one of two orders
-/
namespace Strace.Order

/-- the kinds of stop of the child, and its end -/
inductive Kind where
  | signalStop | seccompStop | syscallStop | end0
  deriving DecidableEq

/-- a system call of the child: whether the filter asks for a seccomp stop, and whether the call returns -/
structure Call where
  traced : Bool
  returns : Bool

/-- the stops of a system call, in a kernel with seccomp stops before system call entry stops (Linux 3.5 to 4.7), or after them -/
def stopsOf (before : Bool) (c : Call) : List Kind :=
  (match c.traced, before with
    | false, _ => [.syscallStop]
    | true, true => [.seccompStop, .syscallStop]
    | true, false => [.syscallStop, .seccompStop]) ++
  if c.returns then [.syscallStop] else []

/-- the child stops itself, calls gettid, for which its filter asks for a stop, and exit_group -/
def script (before : Bool) : List Kind :=
  .signalStop :: ([⟨true, true⟩, ⟨false, false⟩].flatMap (stopsOf before) ++ [.end0])

/-- the kind of what was seen, if the requests strace made then succeeded -/
def kindOf : Ev → Option Kind
  | .exited 0 => some .end0
  | .stopped 19 _ true true => some .signalStop
  | .stopped 5 7 _ true => some .seccompStop
  | .stopped 133 _ _ true => some .syscallStop
  | _ => none

/-- what was seen, interruptions of strace aside -/
def seen (evs : List Ev) : List Ev := evs.filter (fun e => decide (e ≠ .eintr))

/-- the first things seen are those of a kernel with this order -/
def Seen (before : Bool) (evs : List Ev) : Prop :=
  ((seen evs).take (script before).length).map kindOf = (script before).map some

/-- the child has ended -/
def Gone : Ev → Prop
  | .exited _ => True
  | .signaled _ => True
  | _ => False

end Strace.Order
