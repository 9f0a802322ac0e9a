/-!
# System call numbers: src/linux/*/shuffle_scno.c

Numbers are `kernel_ulong_t`, modelled as natural numbers below 2^64 (2^32 on arm).
-/
namespace Strace.Misc

/-- src/linux/generic/shuffle_scno.c:8-12 -/
def shuffleGeneric (scno : Nat) (_pers : Nat) : Nat := scno

/-- src/linux/arm/shuffle_scno.c:11-38; `first` is ARM_FIRST_SHUFFLED_SYSCALL, `last` is ARM_LAST_SPECIAL_SYSCALL -/
def shuffleArm (first last scno : Nat) : Nat :=
  if scno < first then scno
  else if scno = first then 0x000ffff0
  else if scno = 0x000ffff0 then first
  else if scno ≥ 0x000f0000 ∧ scno ≤ 0x000f0000 + last then scno - 0x000f0000 + (first + 1)
  else if scno ≤ first + 1 + last then scno + 0x000f0000 - (first + 1)
  else scno

/-- src/linux/aarch64/shuffle_scno.c:14-21 -/
def shuffleAarch64 (first last scno pers : Nat) : Nat :=
  if pers = 1 then shuffleArm first last scno else scno

/-- src/linux/ia64/shuffle_scno.c:7-11, SYSCALLENT_BASE_NR is 1024 -/
def shuffleIa64 (scno _pers : Nat) : Nat := scno ^^^ 2 ^ 10

/-- src/linux/x86_64/shuffle_scno.c:8-15, __X32_SYSCALL_BIT is bit 30 -/
def shuffleX86 (scno pers : Nat) : Nat := if pers = 2 then scno ^^^ 2 ^ 30 else scno

/-- src/linux/x32/shuffle_scno.c:8-15 -/
def shuffleX32 (scno pers : Nat) : Nat := if pers = 0 ∧ scno ≠ 2 ^ 64 - 1 then scno ^^^ 2 ^ 30 else scno

/-! ### ioctl names -/

/-- `ioctl_lookup` after `bsearch`, src/ioctl.c:56-63: step back to the first entry with the code; the argument is the
index found -/
def stepBack (tab : List (Nat × String)) (code : Nat) : Nat → Nat
  | 0 => 0
  | i + 1 => if (tab.getD i (0, "")).1 ≠ code then i + 1 else stepBack tab code i

/-- the loop over `ioctl_next_match`, src/ioctl.c:65-72 and 531-540: the names printed from an index on -/
def namesFrom (tab : List (Nat × String)) (i : Nat) : Nat → List String
  | 0 => []
  | fuel + 1 =>
    (tab.getD i (0, "")).2 ::
      if i + 1 < tab.length ∧ (tab.getD (i + 1) (0, "")).1 = (tab.getD i (0, "")).1 then namesFrom tab (i + 1) fuel
      else []

/-- the names printed for a command, src/ioctl.c:528-541; `found` is the result of `bsearch`.  The command is cut to
`unsigned int`. -/
def ioctlNames (tab : List (Nat × String)) (found : Option Nat) (arg : Nat) : List String :=
  match found with
  | none => []
  | some i => namesFrom tab (stepBack tab (arg % 2 ^ 32) i) tab.length

end Strace.Misc
