import Verif.Fork.Model
/-!
# The family that -f follows

From the manual: -f traces the children of the tasks that are traced, as they are made.  Told from what happened only.
-/
namespace Strace.Fork.Spec
open Strace.Fork (Act)

/-- The family after one more event.  A child of a member is a member, unless it is made with CLONE_UNTRACED, which the kernel keeps
from being traced (CLONE_PTRACE overrides that); a process number that is used anew belongs to the new process. -/
def family (fam : List Nat) : List Act → List Nat
  | [] => fam
  | .clone p q untraced ptrace :: as =>
    family (if p ∈ fam ∧ (untraced = false ∨ ptrace = true) then q :: fam else fam) as
  | .reap p :: as => family (fam.filter (· ≠ p)) as
  | .die _ :: as => family fam as
  | .stop _ :: as => family fam as
  | .wait :: as => family fam as

/-- The tasks strace has been told to trace that have not gone: without -f, nobody else is traced. -/
def named (fam : List Nat) : List Act → List Nat
  | [] => fam
  | .reap p :: as => named (fam.filter (· ≠ p)) as
  | .clone _ _ _ _ :: as => named fam as
  | .die _ :: as => named fam as
  | .stop _ :: as => named fam as
  | .wait :: as => named fam as

end Strace.Fork.Spec
