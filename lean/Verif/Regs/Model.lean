import Verif.Result.Model
/-!
# Reading a system call: mode, number, arguments

`syscall.c` (`set_personality`, `update_personality`, `get_regs`, `strace_get_syscall_info`, `get_scno`,
`get_syscall_args`), `linux/x86_64/{arch_regs,getregs_old,get_scno,get_syscall_args,arch_get_personality,shuffle_scno}.c`
and the parts of `strace.c` that change which tracee and which mode are in force.  The build is that for x86_64, which
has three modes ("personalities").
-/
namespace Strace.Regs

open Strace.Result (Pers)

/-! ### Registers -/

/-- Indices of the members of `struct user_regs_struct`, src/linux/x86_64/arch_regs.h:9-35 (<sys/user.h> has the same
order). -/
def iRBP : Nat := 4
def iRBX : Nat := 5
def iR10 : Nat := 7
def iR9 : Nat := 8
def iR8 : Nat := 9
def iRAX : Nat := 10
def iRCX : Nat := 11
def iRDX : Nat := 12
def iRSI : Nat := 13
def iRDI : Nat := 14
def iORIG : Nat := 15
def iRIP : Nat := 16
def iCS : Nat := 17
def iRSP : Nat := 19

/-- Indices of the members of `struct i386_user_regs_struct`, src/linux/x86_64/arch_regs.c:14-32. -/
def jEBX : Nat := 0
def jECX : Nat := 1
def jEDX : Nat := 2
def jESI : Nat := 3
def jEDI : Nat := 4
def jEBP : Nat := 5
def jEAX : Nat := 6
def jORIG : Nat := 11
def jEIP : Nat := 12
def jESP : Nat := 15

/-- The low and the high half of a register. -/
def lo (w : BitVec 64) : BitVec 32 := w.setWidth 32
def hi (w : BitVec 64) : BitVec 32 := (w >>> 32).setWidth 32

/-- `x86_regs_union`, src/linux/x86_64/arch_regs.c:33-36, in units of 4 bytes: every member is aligned to them. -/
def Mem : Type := Nat → BitVec 32

/-- `x86_64_regs`: a member of the large structure (little endian) -/
def r64 (m : Mem) (n : Nat) : BitVec 64 := m (2 * n + 1) ++ m (2 * n)

/-- `i386_regs`: a member of the small structure, which starts at the same address -/
def r32 (m : Mem) (n : Nat) : BitVec 32 := m n

/-- writing a member of the small structure -/
def put (m : Mem) (n : Nat) (v : BitVec 32) : Mem := fun i => if i = n then v else m i

/-- the kernel has written the 27 members of the large structure -/
def load64 (m : Mem) (w : Nat → BitVec 64) : Mem := fun i =>
  if i < 54 then (if i % 2 = 0 then lo (w (i / 2)) else hi (w (i / 2))) else m i

/-- the kernel has written the 17 members of the small structure -/
def load32 (m : Mem) (w : Nat → BitVec 32) : Mem := fun i => if i < 17 then w i else m i

/-! ### What the kernel answers at a stop -/

/-- `struct strace_ptrace_syscall_info`, src/ptrace.h:179-202; `nr` and `args` are at the same place for entry and seccomp
stops.  The pointers are left out. -/
structure Sci where
  op : Nat
  arch : Nat
  nr : BitVec 64
  args : List (BitVec 64)
deriving DecidableEq

/-- What PTRACE_GETREGSET of NT_PRSTATUS stores. -/
inductive RegSet
  | small (w : Nat → BitVec 32)
  | big (w : Nat → BitVec 64)

/-- The answers to PTRACE_GET_SYSCALL_INFO, PTRACE_GETREGSET and PTRACE_GETREGS (`none` if they fail), and whether errno is
then EPERM or ESRCH. -/
structure Kern where
  info : Option Sci
  regset : Option RegSet
  getregs : Option (Nat → BitVec 64)
  gone : Bool

/-! ### State -/

/-- What is shown, as far as it is of interest: `new` is not shown, it records the mode a new tracee is given. -/
inductive Line
  | new (pid : Nat) (p : Pers)
  | mode (pid : Nat) (p : Pers)
  | call (pid : Nat) (p : Pers) (nr : BitVec 64) (args : List (BitVec 64))
  | unknown (pid : Nat)
  | ret (pid : Nat) (p : Pers)
  | lost (pid : Nat)
  | other (pid : Nat) (p : Pers)
  | unfinished (pid : Nat)
deriving DecidableEq

/-- Members of `struct tcb`; `mid` is `curcol != 0`. -/
structure Tcb where
  currpers : Pers
  startup : Bool
  grabbed : Bool
  insys : Bool
  mid : Bool

/-- What the options and the tables say: `ptrace_get_syscall_info_supported`, --quiet=personality, `output_separately`,
and which calls of a table are marked COMPAT_SYSCALL_TYPES. -/
structure Env where
  infoOk : Bool
  quiet : Bool
  separate : Bool
  cst : Pers → BitVec 64 → Bool

/-- The state: `current_personality`, `ptrace_sci` (`none` if its `op` is 0xff), `get_regs_error`, `use_getregs_old`,
`x86_io.iov_len`, `x86_regs_union`, `current_tcp`, `printing_tcp`, the tracees by pid, and what has been shown. -/
structure St where
  pers : Pers
  sci : Option Sci
  regsErr : Int
  useOld : Int
  iov : Nat
  mem : Mem
  cur : Option Nat
  printing : Option Nat
  tcbs : Nat → Tcb
  out : List Line

/-- changing a tracee -/
def upd (s : St) (pid : Nat) (f : Tcb → Tcb) : St :=
  { s with tcbs := fun q => if q = pid then f (s.tcbs q) else s.tcbs q }

/-- showing a line -/
def emit (s : St) (l : Line) : St := { s with out := s.out ++ [l] }

/-! ### Modes -/

/-- src/syscall.c:200-242 `set_personality`: the tables and word sizes follow `current_personality` -/
def setPersonality (s : St) (p : Pers) : St := { s with pers := p }

/-- src/strace.c:829-837 `set_current_tcp` -/
def setCurrent (s : St) (pid : Nat) : St := setPersonality { s with cur := some pid } (s.tcbs pid).currpers

/-- src/strace.c:859-876, in `printleader`: the line of the tracee shown before is ended.  Lines that are held back for
--status are left out. -/
def endOther (E : Env) (s : St) (pid : Nat) : St :=
  match (if E.separate then some pid else s.printing) with
  | none => s
  | some q =>
    if (s.tcbs q).mid && (decide (q = pid) || !E.separate) then
      upd (emit (setCurrent s q) (.unfinished q)) q fun t => { t with mid := false }
    else s

/-- src/strace.c:850-880 `printleader`, without the texts of the leader -/
def printleader (E : Env) (s : St) (pid : Nat) : St :=
  upd (setCurrent { endOther E s pid with printing := some pid } pid) pid fun t => { t with mid := false }

/-- the column of a tracee, which is not at 0 after something has been printed (src/strace.c:770-783 `tprints_string`) -/
def setMid (s : St) (pid : Nat) (b : Bool) : St := upd s pid fun t => { t with mid := b }

/-- src/strace.c:815-827 `line_ended` -/
def lineEnded (s : St) : St :=
  let s1 := match s.cur with | some q => setMid s q false | none => s
  match s1.printing with
  | some q => { setMid s1 q false with printing := none }
  | none => s1

/-- src/syscall.c:244-276 `update_personality`; the warning about missing mpers support and the unwinder are left out -/
def updatePersonality (E : Env) (s : St) (pid : Nat) (p : Pers) : St :=
  let s1 := setPersonality s p
  if p = (s1.tcbs pid).currpers then s1
  else
    let s2 := upd s1 pid fun t => { t with currpers := p }
    if E.quiet then s2 else lineEnded (emit (printleader E s2 pid) (.mode pid p))

/-! ### Registers and information about a call -/

def OP_NONE : Nat := 0
def OP_ENTRY : Nat := 1
def OP_EXIT : Nat := 2
def OP_SECCOMP : Nat := 3
def AUDIT_ARCH_I386 : Nat := 0x40000003
def AUDIT_ARCH_X86_64 : Nat := 0xC000003E

/-- src/syscall.c:1195-1200 `clear_regs` -/
def clearRegs (s : St) : St := { s with sci := none, regsErr := -1 }

/-- src/syscall.c:1085-1091 `ptrace_syscall_info_is_entry` -/
def isEntry (E : Env) (s : St) : Bool :=
  E.infoOk && (match s.sci with | some i => decide (i.op = OP_ENTRY) || decide (i.op = OP_SECCOMP) | none => false)

/-- src/syscall.c:1093-1098 `ptrace_syscall_info_is_exit` -/
def isExit (E : Env) (s : St) : Bool :=
  E.infoOk && (match s.sci with | some i => decide (i.op = OP_EXIT) | none => false)

/-- is `__X32_SYSCALL_BIT` set? -/
def x32Bit (v : BitVec 64) : Bool := v.getLsbD 30

/-- src/linux/x86_64/arch_get_personality.c:8-39 `get_personality_from_syscall_info`; `none` is -1 -/
def persOfInfo (i : Sci) : Option Pers :=
  if i.op = OP_ENTRY ∨ i.op = OP_SECCOMP then
    if i.arch = AUDIT_ARCH_I386 then some .i386
    else if x32Bit i.nr && decide (i.nr ≠ BitVec.allOnes 64) then some .x32
    else some .x64
  else none

/-- src/syscall.c:1124-1131 `ptrace_getregset`; the sizes of the structures are 216 and 68 -/
def ptraceGetregset (s : St) (k : Kern) : St × Int :=
  match k.regset with
  | none => ({ s with iov := 216 }, -1)
  | some (.big w) => ({ s with iov := 216, mem := load64 s.mem w }, 0)
  | some (.small w) => ({ s with iov := 68, mem := load32 s.mem w }, 0)

/-- src/linux/x86_64/getregs_old.c:22-44: the small structure is filled from the large one, which is overlaid with it -/
def overlay (m0 : Mem) : Mem :=
  let m1 := put m0 jEBX (lo (r64 m0 iRBX))
  let m2 := put m1 jECX (lo (r64 m1 iRCX))
  let m3 := put m2 jEDX (lo (r64 m2 iRDX))
  let m4 := put m3 jESI (lo (r64 m3 iRSI))
  let m5 := put m4 jEDI (lo (r64 m4 iRDI))
  let m6 := put m5 jEBP (lo (r64 m5 iRBP))
  let m7 := put m6 jEAX (lo (r64 m6 iRAX))
  let m8 := put m7 jORIG (lo (r64 m7 iORIG))
  let m9 := put m8 jEIP (lo (r64 m8 iRIP))
  put m9 jESP (lo (r64 m9 iRSP))

/-- src/linux/x86_64/getregs_old.c:14-49 `getregs_old` -/
def getregsOld (s : St) (k : Kern) : St × Int :=
  match k.getregs with
  | none => (s, -1)
  | some w =>
    let m := load64 s.mem w
    if r64 m iCS = 0x23#64 then ({ s with iov := 68, mem := overlay m }, 0)
    else ({ s with iov := 216, mem := m }, 0)

/-- `return get_regs_error = ...` -/
def keepErr (r : St × Int) : St × Int := ({ r.1 with regsErr := r.2 }, r.2)

/-- src/syscall.c:1202-1228 `get_regs` -/
def getRegs (s : St) (k : Kern) : St × Int :=
  if s.regsErr ≠ -1 then (s, s.regsErr)
  else if s.useOld < 0 then keepErr (ptraceGetregset s k)
  else if s.useOld = 0 then
    if (ptraceGetregset s k).2 ≥ 0 then
      keepErr ({ (ptraceGetregset s k).1 with useOld := -1 }, (ptraceGetregset s k).2)
    else if k.gone then keepErr (ptraceGetregset s k)
    else keepErr (getregsOld { (ptraceGetregset s k).1 with useOld := 1 } k)
  else keepErr (getregsOld s k)

/-- src/syscall.c:1294-1332 `strace_get_syscall_info`, without the error messages -/
def getInfo (E : Env) (s : St) (k : Kern) (pid : Nat) : St × Bool :=
  match s.sci with
  | some _ => (s, true)
  | none =>
    match k.info with
    | none => ({ s with regsErr := -2 }, false)
    | some i =>
      match persOfInfo i with
      | some p => (updatePersonality E { s with sci := some i } pid p, true)
      | none => ({ s with sci := some i }, true)

/-- src/syscall.c:1388-1413 `get_syscall_regs` -/
def getSyscallRegs (E : Env) (s : St) (k : Kern) (pid : Nat) : St × Int :=
  if s.regsErr ≠ -1 then (s, s.regsErr)
  else if E.infoOk then
    if !(getInfo E s k pid).2 then ((getInfo E s k pid).1, (getInfo E s k pid).1.regsErr)
    else if (!((getInfo E s k pid).1.tcbs pid).insys && isEntry E (getInfo E s k pid).1)
        || (((getInfo E s k pid).1.tcbs pid).insys && isExit E (getInfo E s k pid).1) then
      ((getInfo E s k pid).1, 0)
    else getRegs (getInfo E s k pid).1 k
  else getRegs s k

/-- src/linux/x86_64/get_scno.c:31-54: the mode and the number in the registers -/
def scnoInRegs (s : St) : Pers × BitVec 64 :=
  if s.iov = 68 then (.i386, (r32 s.mem jORIG).setWidth 64)
  else if x32Bit (r64 s.mem iORIG) && decide (r64 s.mem iORIG ≠ BitVec.allOnes 64) then (.x32, r64 s.mem iORIG)
  else (.x64, r64 s.mem iORIG)

/-- src/linux/x86_64/shuffle_scno.c:8-15 `shuffle_scno_pers` -/
def shuffleScno (p : Pers) (v : BitVec 64) : BitVec 64 := if p = .x32 then v ^^^ 0x40000000#64 else v

/-- src/syscall.c:1431-1484 `get_scno`: the number within the table of the mode in force, if the answer is 1.
`arch_check_scno` does nothing here (src/linux/generic/check_scno.c:9-13).  -/
def getScno (E : Env) (s : St) (k : Kern) (pid : Nat) : St × Option (BitVec 64) :=
  let s1 := (getSyscallRegs E s k pid).1
  if (getSyscallRegs E s k pid).2 < 0 then (s1, none)
  else if isEntry E s1 then (s1, s1.sci.map fun i => shuffleScno s1.pers i.nr)
  else
    let s2 := updatePersonality E s1 pid (scnoInRegs s1).1
    (s2, some (shuffleScno s2.pers (scnoInRegs s1).2))

/-- `(uint32_t) x` as an argument -/
def zext (x : BitVec 64) : BitVec 64 := (lo x).setWidth 64

/-- src/linux/x86_64/get_syscall_args.c:9-50 `arch_get_syscall_args` -/
def argsInRegs (s : St) (compat : Bool) : List (BitVec 64) :=
  if s.iov ≠ 68 then
    let a := [r64 s.mem iRDI, r64 s.mem iRSI, r64 s.mem iRDX, r64 s.mem iR10, r64 s.mem iR8, r64 s.mem iR9]
    if compat then a.map zext else a
  else [jEBX, jECX, jEDX, jESI, jEDI, jEBP].map fun j => (r32 s.mem j).setWidth 64

/-- src/syscall.c:1486-1511 `get_syscall_args` -/
def getArgs (E : Env) (s : St) (nr : BitVec 64) : List (BitVec 64) :=
  if isEntry E s then
    match s.sci with
    | some i => if E.cst s.pers nr then i.args.map zext else i.args
    | none => []
  else argsInRegs s (E.cst s.pers nr)

/-! ### Events -/

/-- src/syscall.c:580-617 `syscall_entering_decode`, 619-676 `syscall_entering_trace`, 678-682 `syscall_entering_finish`,
called by src/strace.c:3926-3938 `trace_syscall`, for a call that is shown -/
def entering (E : Env) (s : St) (k : Kern) (pid : Nat) : St :=
  let r := getScno E s k pid
  let s2 := printleader E r.1 pid
  let s3 := match r.2 with
    | none => emit s2 (.unknown pid)
    | some nr => emit s2 (.call pid s2.pers nr (getArgs E r.1 nr))
  upd s3 pid fun t => { t with mid := true, insys := true }

/-- src/syscall.c:743-762 `print_syscall_resume`; TCB_REPRINT is left out -/
def printResume (E : Env) (s : St) (pid : Nat) : St :=
  if !E.separate && decide (s.printing ≠ some pid) then
    { setMid (printleader E s pid) pid true with printing := some pid }
  else { s with printing := some pid }

/-- src/syscall.c:714-741 `syscall_exiting_decode`, 787-1029 `syscall_exiting_trace`, 1031-1045 `syscall_exiting_finish` -/
def exiting (E : Env) (s : St) (k : Kern) (pid : Nat) : St :=
  let s1 := updatePersonality E s pid (s.tcbs pid).currpers
  let r := getSyscallRegs E s1 k pid
  let s2 := printResume E r.1 pid
  let s3 := lineEnded (emit s2 (if r.2 < 0 then .lost pid else .ret pid s2.pers))
  upd s3 pid fun t => { t with insys := false }

/-- src/strace.c:3517-3549 `startup_tcb` -/
def startup (E : Env) (s : St) (k : Kern) (pid : Nat) : St :=
  if (s.tcbs pid).startup then
    let s1 := upd s pid fun t => { t with startup := false }
    if (s1.tcbs pid).grabbed then (getScno E s1 k pid).1 else s1
  else s

/-- src/strace.c:3912-3922, the end of `next_event`: a stopped tracee is taken from the queue -/
def nextEvent (E : Env) (s : St) (k : Kern) (pid : Nat) : St :=
  setCurrent (startup E (clearRegs s) k pid) pid

/-- What happens: a tracee appears (src/strace.c:1048-1074 `alloctcb`), disappears (1107-1167 `droptcb`), stops at a call,
or stops for another reason, which may be shown (3458-3515 `print_signalled`, `print_exited`, `print_stopped`). -/
inductive Ev
  | new (pid : Nat) (grabbed : Bool)
  | drop (pid : Nat)
  | sys (pid : Nat) (k : Kern)
  | other (pid : Nat) (k : Kern) (shown : Bool)

/-- One event. -/
def step (E : Env) (s : St) : Ev → St
  | .new pid g =>
    emit { s with tcbs := fun q => if q = pid then ⟨s.pers, true, g, false, false⟩ else s.tcbs q } (.new pid s.pers)
  | .drop pid =>
    { s with
      cur := if s.cur = some pid then none else s.cur
      printing := if s.printing = some pid then none else s.printing
      tcbs := fun q => if q = pid then ⟨.x64, false, false, false, false⟩ else s.tcbs q }
  | .sys pid k =>
    let s1 := nextEvent E s k pid
    if (s1.tcbs pid).insys then exiting E s1 k pid else entering E s1 k pid
  | .other pid k shown =>
    let s1 := nextEvent E s k pid
    if shown then
      let s2 := printleader E s1 pid
      lineEnded (emit s2 (.other pid s2.pers))
    else s1

/-- A history. -/
def run (E : Env) (s : St) : List Ev → St
  | [] => s
  | e :: es => run E (step E s e) es

/-- The state at the start: src/strace.c:2316 and the initial values of the variables. -/
def start : St :=
  { pers := .x64, sci := none, regsErr := -1, useOld := 0, iov := 0, mem := fun _ => 0#32, cur := none, printing := none,
    tcbs := fun _ => ⟨.x64, false, false, false, false⟩, out := [] }

end Strace.Regs
