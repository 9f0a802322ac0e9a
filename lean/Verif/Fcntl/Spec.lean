import Verif.Fcntl.Model
/-!
# What fcntl does with its third argument

The lists are those of the kernel's interface (fcntl(2), linux/fcntl.h), not of the decoder.
-/
namespace Strace.Fcntl.Spec

/-- Commands whose third argument is a number, with the 64-bit command numbers of x86:
F_DUPFD, F_DUPFD_CLOEXEC, F_SETFD, F_SETFL, F_SETOWN, F_SETSIG, F_SETLEASE, F_NOTIFY, F_DUPFD_QUERY,
F_SETPIPE_SZ, F_ADD_SEALS. -/
def valueCommands : List Nat := [0, 1030, 2, 4, 8, 10, 1024, 1026, 1027, 1031, 1033]

/-- Commands that take a lock from memory: F_SETLK, F_SETLKW, and with 64-bit offsets F_OFD_SETLK, F_OFD_SETLKW. -/
def setLock : List Nat := [6, 7]
def setLockWide : List Nat := [37, 38]

/-- Commands that put a lock into memory: F_GETLK, and F_OFD_GETLK. -/
def getLock : List Nat := [5]
def getLockWide : List Nat := [36]

/-- fcntl64 has three more: F_SETLK64, F_SETLKW64; F_GETLK64. -/
def setLock64 : List Nat := [13, 14]
def getLock64 : List Nat := [12]

/-- F_SETOWN_EX takes an owner from memory, F_GETOWN_EX puts one there. -/
def setOwnerEx : List Nat := [15]
def getOwnerEx : List Nat := [16]

/-- Commands without a third argument: F_GETFD, F_GETFL, F_GETOWN, F_GETSIG, F_GETLEASE, F_GETPIPE_SZ,
F_GET_SEALS. -/
def noArgument : List Nat := [1, 3, 9, 11, 1025, 1032, 1034]

/-- The command takes its argument from the caller: as a number or from memory. -/
def TakesInput (is64 : Bool) (cmd : Nat) : Prop :=
  cmd ∈ valueCommands ∨ cmd ∈ setLock ∨ cmd ∈ setLockWide ∨ cmd ∈ setOwnerEx ∨ (is64 = true ∧ cmd ∈ setLock64)

/-- The command fills memory. -/
def FillsMemory (is64 : Bool) (cmd : Nat) : Prop :=
  cmd ∈ getLock ∨ cmd ∈ getLockWide ∨ cmd ∈ getOwnerEx ∨ (is64 = true ∧ cmd ∈ getLock64)

/-- The number in `n` bytes from offset `o` on, the byte `i` counting 256^i. -/
def le (B : Nat → Nat) (o : Nat) : Nat → Nat
  | 0 => 0
  | n + 1 => le B o n + 256 ^ n * B (o + n)

/-- The same read as a signed number. -/
def sle (B : Nat → Nat) (o n : Nat) : Int :=
  if 2 * le B o n < 256 ^ n then (le B o n : Int) else (le B o n : Int) - 256 ^ n

/-- `n` bytes at address `a` are readable and are `B 0`, `B 1`, … -/
def Holds (m : Mem) (a n : Nat) (B : Nat → Nat) : Prop := ∀ i, i < n → m (a + i) = some (B i)

end Strace.Fcntl.Spec
