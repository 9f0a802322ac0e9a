import Verif.Fds.Model
/-!
# What descriptors the processes are to have

`t0` is the table strace was started with.
-/
namespace Strace.Fds.Spec
open Strace.Fds

/-- execve(2) leaves no descriptor with FD_CLOEXEC, so strace starts with none -/
def Started (t0 : Table) : Prop := ∀ i e, get t0 i = some e → e.cloexec = false ∧ ∃ n, e.file = .orig n

/-- the program has what strace was started with: nothing less, nothing more, nothing else -/
def Inherits (t0 p : Table) : Prop := ∀ i, get p i = get t0 i

/-- the command has what strace was started with, except that its standard input is the output of strace -/
def Reads (t0 c : Table) : Prop := get c 0 = some ⟨.cmdR, false⟩ ∧ ∀ i, i ≠ 0 → get c i = get t0 i

/-- strace no longer holds the standard input and output it was started with, keeps the others, and has at most
descriptors of its own besides: none of them is inherited by a program -/
structure LetsGo (t0 s : Table) : Prop where
  stdin : get s 0 = some ⟨.dummyR, true⟩
  stdout : get s 1 = some ⟨.dummyR, true⟩
  stderr : get s 2 = (match get t0 2 with | some e => some e | none => some ⟨.dummyR, true⟩)
  kept : ∀ i e, 3 ≤ i → get t0 i = some e → get s i = some e
  own : ∀ i e, 3 ≤ i → get t0 i = none → get s i = some e → e.cloexec = true

/-- where strace writes: not to a standard descriptor, to its own file or pipe -/
def Writes (d : Dest) (s : Table) (fd : Nat) : Prop :=
  3 ≤ fd ∧ get s fd = some ⟨if d = .command then .cmdW else .log, true⟩

end Strace.Fds.Spec
