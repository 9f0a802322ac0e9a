import Verif.Expl.Model
/-!
# What an explanation is

The text after a result explains that result: it is made from this result, and from nothing that has happened before.  A
call that has failed has none.  Which results have one is given by a rule for each call.
-/
namespace Strace.Expl.Spec

/-- When a result has an explanation. -/
inductive Rule
  /-- the result of any call that succeeds -/
  | success
  /-- a result other than 0 -/
  | nonzero
  /-- of a result 0 that the time has run out, of others what was found -/
  | timeout
  /-- no result -/
  | never
deriving DecidableEq, Repr

/-- The rules: bit masks of which 0 is the empty one have none for 0; MEMBARRIER_CMD_QUERY is 0; three misfeatures of the
processor are known (0, 1, 2). -/
def rule : Dec → Rule
  | .select => .timeout
  | .poll => .timeout
  | .recvmmsg => .timeout
  | .fGetfd => .nonzero
  | .fGetSeals => .nonzero
  | .fGetsig => .nonzero
  | .membarrier cmd => if cmd = 0 then .nonzero else .never
  | .prGetSecurebits => .nonzero
  | .prGetFpMode => .nonzero
  | .prSveSetVl => .nonzero
  | .prSveGetVl => .nonzero
  | .prSmeSetVl => .nonzero
  | .prSmeGetVl => .nonzero
  | .prPpcGetDexcr => .nonzero
  | .archReqXcompPerm => .nonzero
  | .rtSigtimedwait => .nonzero
  | .prGetSpeculationCtrl m => if m < 3 then .success else .never
  | .other => .never
  | _ => .success

/-- Decoders whose text needs something that may not be to be had. -/
def needs : Dec → Bool
  | .poll => true
  | .recvmmsg => true
  | .ioprioGet => true
  | .kvmRun => true
  | .setThreadArea => true
  | .adjtimex => true
  | .v4l2CreateBufs => true
  | .clone => true
  | .clone3 => true
  | .setns => true
  | .unshare => true
  | _ => false

/-- The explanation of the result of a call. -/
def explanation (c : Call) : Option Txt :=
  if c.failed then none
  else
    match rule c.dec with
    | .never => none
    | .success => if needs c.dec && !c.avail then none else c.own
    | .nonzero => if c.rval = 0 then none else c.own
    | .timeout =>
      if c.rval = 0 then some "Timeout".toList else if needs c.dec && !c.avail then none else c.own

/-- Results that the kernel and strace give: that of a failed call is -1 (get_error), and the calls here that return a mask of
features do not return negative numbers without failing. -/
def Sane (c : Call) : Prop :=
  (c.failed = true → c.rval = -1) ∧ (c.dec = .archReqXcompPerm → c.failed = false → 0 ≤ c.rval)

/-- The lines that a history should have. -/
def lines : List Event → List (Nat × Option Txt)
  | [] => []
  | .exit t c :: l => (t, explanation c) :: lines l
  | .enter _ _ _ :: l => lines l
  | .write _ _ :: l => lines l

end Strace.Expl.Spec
