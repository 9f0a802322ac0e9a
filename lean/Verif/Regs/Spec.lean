import Verif.Regs.Model
/-!
# What a system call is, for the kernel

A task at a stop and what the kernel takes it for; the answers of the kernel to ptrace requests (the contract); and what
the lines of a log are to say about a history of stops.
-/
namespace Strace.Regs.Spec

open Strace.Result (Pers)
open Strace.Regs (Line Kern Sci RegSet Env Ev)

/-- A task at a stop: whether the call was made through the 32-bit entry (`int $0x80`, 32-bit `sysenter`), whether its
code segment is a 32-bit one, and its registers in the order of `user_regs_struct`. -/
structure Task where
  ia32 : Bool
  cs32 : Bool
  regs : Nat → BitVec 64

/-- The number the kernel takes: the low half of orig_ax (register 15) as a signed number. -/
def Task.raw (t : Task) : BitVec 64 := ((t.regs 15).setWidth 32).signExtend 64

/-- The mode of the call: i386 by the 32-bit entry; otherwise x32 if bit 30 of the number is set, unless the number is -1,
which is no call. -/
def Task.mode (t : Task) : Pers :=
  if t.ia32 then .i386 else if t.raw.getLsbD 30 = true ∧ t.raw ≠ -1#64 then .x32 else .x64

/-- The number within the table of the mode. -/
def Task.number (t : Task) : BitVec 64 := if t.mode = .x32 then t.raw - 0x40000000#64 else t.raw

/-- The registers of the arguments: ebx, ecx, edx, esi, edi, ebp; or rdi, rsi, rdx, r10, r8, r9. -/
def Task.argRegs (t : Task) : List Nat := if t.ia32 then [5, 11, 12, 13, 14, 4] else [14, 13, 12, 7, 9, 8]

/-- The arguments: 32 bits of each for i386 and for the calls with 32-bit types, otherwise all of it. -/
def Task.args (t : Task) (narrow : Bool) : List (BitVec 64) :=
  t.argRegs.map fun r =>
    if t.ia32 = true ∨ narrow = true then BitVec.ofNat 64 ((t.regs r).toNat % 2 ^ 32) else t.regs r

/-! ### Contract of ptrace -/

/-- The members of the small register set, as registers of the task: ebx, ecx, edx, esi, edi, ebp, eax, xds, xes, xfs, xgs,
orig_eax, eip, xcs, eflags, esp, xss. -/
def smallRegs : List Nat := [5, 11, 12, 13, 14, 4, 10, 23, 24, 25, 26, 15, 16, 17, 18, 19, 20]

/-- PTRACE_GETREGSET stores the small set for 32-bit code, the large one otherwise. -/
def Task.regset (t : Task) : RegSet :=
  if t.cs32 then .small fun j => (t.regs (smallRegs.getD j 0)).setWidth 32 else .big t.regs

/-- The answers at a stop of kind `op`; `R` says whether the kernel has PTRACE_GETREGSET. -/
def Task.kern (t : Task) (R : Bool) (op : Nat) : Kern :=
  { info := some ⟨op, if t.ia32 then 0x40000003 else 0xC000003E, t.raw, t.argRegs.map t.regs⟩
    regset := if R then some t.regset else none
    getregs := some t.regs
    gone := false }

/-- The answers for a task that has been killed. -/
def deadKern : Kern := ⟨none, none, none, true⟩

/-! ### Histories -/

/-- What happens: a tracee appears or disappears; a task enters a call (seen at a stop of the call or of seccomp), leaves
it, is found killed when it would have left it, or stops for another reason, which is shown or not. -/
inductive SEv
  | new (pid : Nat) (grabbed : Bool)
  | drop (pid : Nat)
  | enter (pid : Nat) (t : Task) (seccomp : Bool)
  | leave (pid : Nat) (t : Task)
  | dead (pid : Nat)
  | other (pid : Nat) (t : Task) (shown : Bool)

/-- The events as strace gets them. -/
def SEv.ev (R : Bool) : SEv → Ev
  | .new pid g => .new pid g
  | .drop pid => .drop pid
  | .enter pid t sec => .sys pid (t.kern R (if sec then 3 else 1))
  | .leave pid t => .sys pid (t.kern R 2)
  | .dead pid => .sys pid deadKern
  | .other pid t shown => .other pid (t.kern R 0) shown

/-- Each task enters and leaves calls in turn; `ins` says which are in a call. -/
def Turns (ins : Nat → Bool) : List SEv → Prop
  | [] => True
  | .new pid _ :: es => Turns (fun q => if q = pid then false else ins q) es
  | .drop pid :: es => Turns (fun q => if q = pid then false else ins q) es
  | .enter pid _ _ :: es => ins pid = false ∧ Turns (fun q => if q = pid then true else ins q) es
  | .leave pid _ :: es => ins pid = true ∧ Turns (fun q => if q = pid then false else ins q) es
  | .dead pid :: es => ins pid = true ∧ Turns (fun q => if q = pid then false else ins q) es
  | .other _ _ _ :: es => Turns ins es

/-- The lines of calls and results: each call with its mode, number and arguments, each result in the mode of its call;
`modes` has the mode of the last call of a task. -/
def lines (narrow : Pers → BitVec 64 → Bool) (modes : Nat → Pers) : List SEv → List Line
  | [] => []
  | .enter pid t _ :: es =>
    .call pid t.mode t.number (t.args (narrow t.mode t.number)) ::
      lines narrow (fun q => if q = pid then t.mode else modes q) es
  | .leave pid _ :: es => .ret pid (modes pid) :: lines narrow modes es
  | .dead pid :: es => .lost pid :: lines narrow modes es
  | _ :: es => lines narrow modes es

/-- Lines of calls and results. -/
def isCall : Line → Bool
  | .call .. => true
  | .ret .. => true
  | .lost _ => true
  | .unknown _ => true
  | _ => false

/-- What can be read of a call: with PTRACE_GET_SYSCALL_INFO, everything, if a 32-bit call has no garbage in the high
halves of its registers; with registers, if 32-bit calls are made by 32-bit code only, the number is not negative, and,
without PTRACE_GETREGSET, the code segment 0x23 is that of 32-bit code. -/
def Readable (E : Env) (R : Bool) (t : Task) : Prop :=
  if E.infoOk then t.ia32 = true → ∀ r ∈ t.argRegs, (t.regs r).toNat < 2 ^ 32
  else t.ia32 = t.cs32 ∧ (t.regs 15).toNat < 2 ^ 31 ∧ (R = false → (t.regs 17 = 0x23#64 ↔ t.cs32 = true))

/-! ### Following the modes in a log -/

/-- The mode a reader of the log takes a tracee to be in: that of the last message about it, or the one it began with. -/
def told (pid : Nat) (p : Pers) : List Line → Pers
  | [] => p
  | .new q m :: ls => told pid (if q = pid then m else p) ls
  | .mode q m :: ls => told pid (if q = pid then m else p) ls
  | _ :: ls => told pid p ls

/-- The mode a line has been shown in. -/
def lineMode : Line → Option (Nat × Pers)
  | .call pid p _ _ => some (pid, p)
  | .ret pid p => some (pid, p)
  | .other pid p => some (pid, p)
  | _ => none

/-- Events are of tracees that are there. -/
def Present (live : Nat → Bool) : List Ev → Prop
  | [] => True
  | .new pid _ :: es => Present (fun q => if q = pid then true else live q) es
  | .drop pid :: es => Present (fun q => if q = pid then false else live q) es
  | .sys pid _ :: es => live pid = true ∧ Present live es
  | .other pid _ _ :: es => live pid = true ∧ Present live es

end Strace.Regs.Spec
