import Verif.Psi.Model
/-!
# C109: PTRACE_GET_SYSCALL_INFO
-/
namespace Strace.Psi

/-- what a kernel that has the interface answers at each stop of the child -/
def Common (i : Info) : Prop := i.arch ≠ 0 ∧ i.ip ≠ 0 ∧ i.sp ≠ 0

def AtStop (i : Info) : Prop := 24 ≤ i.rc ∧ i.op = 0 ∧ Common i
def AtEntry (i : Info) (nr : Nat) (args : List Nat) : Prop := 80 ≤ i.rc ∧ i.op = 1 ∧ Common i ∧ i.nr = nr ∧ i.args = args
def AtExit (i : Info) (isError : Nat) (rval : Int) : Prop := 33 ≤ i.rc ∧ i.op = 2 ∧ Common i ∧ i.isError = isError ∧ i.rval = rval

/-- what must have been seen: the stop of the child, chdir("") failing with ENOENT, gettid giving the pid, exit_group, the end -/
def Works (str pid : Nat) (evs : List Ev) : Prop :=
  ∃ i0 i1 i2 i3 i4 i5 : Info, ∃ b1 b2 b3 b4 b5 : Bool, ∃ rest : List Ev,
    evs = .stopped 19 true i0 true :: .stopped 133 b1 i1 true :: .stopped 133 b2 i2 true :: .stopped 133 b3 i3 true ::
      .stopped 133 b4 i4 true :: .stopped 133 b5 i5 true :: .exited 0 :: rest ∧
    AtStop i0 ∧
    AtEntry i1 80 [str, 0xdad1bef1bad1fed1, 0xdad2bef2bad2fed2, 0xdad3bef3bad3fed3, 0xdad4bef4bad4fed4, 0xdad5bef5bad5fed5] ∧
    AtExit i2 1 (-2) ∧
    AtEntry i3 186 [0xdad0bef0caf0bea0, 0xdad1bef1caf1bea1, 0xdad2bef2caf2bea2, 0xdad3bef3caf3bea3, 0xdad4bef4caf4bea4,
      0xdad5bef5caf5bea5] ∧
    AtExit i4 0 pid ∧
    AtEntry i5 231 [0, 0xdad1bef1fac1c0d1, 0xdad2bef2fac2c0d2, 0xdad3bef3fac3c0d3, 0xdad4bef4fac4c0d4, 0xdad5bef5fac5c0d5]

/-- a member of the structure: name, offset, size -/
abbrev Member := String × Nat × Nat

/-- the members that the structure has for each kind of stop: linux/ptrace.h -/
def members (op : Nat) : List Member :=
  [("op", 0, 1), ("reserved", 1, 1), ("flags", 2, 2), ("arch", 4, 4), ("instruction_pointer", 8, 8), ("stack_pointer", 16, 8)] ++
  (if op = 1 ∨ op = 3 then [("nr", 24, 8), ("args", 32, 8), ("args", 40, 8), ("args", 48, 8), ("args", 56, 8), ("args", 64, 8), ("args", 72, 8)]
    else []) ++
  (if op = 2 then [("rval", 24, 8), ("is_error", 32, 1)] else []) ++
  (if op = 3 then [("ret_data", 80, 4), ("reserved2", 84, 4)] else [])

/-- a little-endian number -/
def le (b : List Nat) : Nat := b.foldr (fun x r => x + 256 * r) 0

/-- the value of a member in the bytes the kernel has written -/
def valueOf (b : List Nat) (m : Member) : Nat := le ((b.drop m.2.1).take m.2.2)

/-- a member is to be shown if it was written as a whole; reserved members and the flags only if they are not 0 -/
def toShow (b : List Nat) (m : Member) : Bool :=
  decide (m.2.1 + m.2.2 ≤ b.length) &&
    (decide (m.1 ≠ "reserved" ∧ m.1 ≠ "flags" ∧ m.1 ≠ "reserved2") || decide (valueOf b m ≠ 0))

/-- rval is shown as an error if the kernel says that it is one -/
def asError (b : List Nat) (m : Member) : Bool := decide (m.1 = "rval") && decide (33 ≤ b.length) && decide (b[32]? ≠ some 0)

/-- what is to be shown of the bytes -/
def wanted (b : List Nat) : List Shown :=
  ((members (b.headD 0)).filter (toShow b)).map fun m => ⟨m.1, valueOf b m, asError b m⟩

end Strace.Psi
