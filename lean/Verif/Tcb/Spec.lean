import Verif.Tcb.Model
/-! The tracees as a plain association list. -/
namespace Strace.Tcb
variable {α : Type}

/-- tracees by pid -/
abbrev Live (α : Type) := List (Nat × α)

/-- the tracee of a pid -/
def Live.get (m : Live α) (pid : Nat) : Option α :=
  match m.find? (fun e => e.1 = pid) with
  | none => none
  | some e => some e.2

/-- what each operation means -/
def Live.step (m : Live α) : Op α → Live α
  | .seen pid a => if m.any (fun e => e.1 = pid) then m else (pid, a) :: m
  | .gone pid => m.filter (fun e => e.1 ≠ pid)
  | .exec pid old =>
    if old ≠ pid ∧ m.any (fun e => e.1 = pid) ∧ m.any (fun e => e.1 = old) then
      (m.filter (fun e => e.1 ≠ pid)).map fun e => if e.1 = old then (pid, e.2) else e
    else m
  | .update pid f => m.map fun e => if e.1 = pid then (e.1, f e.2) else e

/-- a history -/
def Live.steps (m : Live α) (os : List (Op α)) : Live α := os.foldl Live.step m

/-- pids are positive and fit an `int` -/
def Op.ok : Op α → Prop
  | .seen pid _ => 0 < pid ∧ pid < 2 ^ 31
  | .gone pid => 0 < pid ∧ pid < 2 ^ 31
  | .exec pid old => 0 < pid ∧ pid < 2 ^ 31 ∧ 0 < old ∧ old < 2 ^ 31
  | .update pid _ => 0 < pid ∧ pid < 2 ^ 31

end Strace.Tcb
