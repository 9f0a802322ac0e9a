import Verif.Base.Dec
import Verif.Cli.Names
import Verif.Time.Model
/-!
# The result of a system call: reading it and showing it

`syscall.c` and `linux/x86_64/get_error.c`: how the outcome of a call is read, from registers or with
PTRACE_GET_SYSCALL_INFO, and the text after the closing parenthesis. Texts are lists of character codes. The build is
that for x86_64 (three personalities).
-/
namespace Strace.Result

open Strace.Filter (codes)
open Strace.Cli (Names errName)

/-! ### Reading -/

/-- the personalities of the x86_64 build (src/linux/x86_64/arch_defs_.h:12-15) -/
inductive Pers | x64 | i386 | x32
deriving Repr, DecidableEq

/-- src/syscall.c:186-197, src/defs.h:115-126: is `current_klongsize` that of the kernel? -/
def Pers.klong8 : Pers → Bool
  | .i386 => false
  | _ => true

/-- the 64-bit two's complement number -/
def s64 (x : Int) : Int := (x + 2 ^ 63) % 2 ^ 64 - 2 ^ 63

/-- the 32-bit two's complement number -/
def s32 (x : Int) : Int := (x + 2 ^ 31) % 2 ^ 32 - 2 ^ 31

/-- src/negated_errno.h:16-29 `is_negated_errno` -/
def isNegatedErrno (p : Pers) (v : Int) : Bool :=
  let val := (v % 2 ^ 64).toNat
  let max := 2 ^ 64 - 4095
  if p.klong8 then decide (val ≥ max) else decide (val % 2 ^ 32 ≥ max % 2 ^ 32)

/-- `u_rval` (kernel_long_t) and `u_error` (unsigned long) of the tracee -/
structure Got where
  rval : Int
  err : Nat
deriving Repr, DecidableEq

/-- src/linux/x86_64/get_error.c:10-35 `arch_get_error`; `ax` is the register as 64 bits.  A 32-bit tracee has the small
register set, of which `eax` is the low half. -/
def archGetError (p : Pers) (ax : Nat) (checkErrno : Bool) : Got :=
  let rax : Int := if p = .i386 then s32 ax else s64 ax
  if checkErrno && isNegatedErrno p rax then ⟨-1, (-rax % 2 ^ 64).toNat⟩
  else if p = .i386 then ⟨rax % 2 ^ 32, 0⟩
  else ⟨rax, 0⟩

/-- what PTRACE_GET_SYSCALL_INFO reports at exit -/
structure Info where
  isError : Bool
  rval : Int

/-- src/syscall.c:1537-1552 `get_error`, called as in src/syscall.c:1524-1534 `get_syscall_result` for a call that is not
tampered with; `info` is there if the kernel supports PTRACE_GET_SYSCALL_INFO. -/
def getResult (p : Pers) (neverFails : Bool) (ax : Nat) (info : Option Info) : Got :=
  match info with
  | some i => if i.isError then ⟨-1, (-i.rval % 2 ^ 64).toNat⟩ else ⟨s64 i.rval, 0⟩
  | none => archGetError p ax !neverFails

/-! ### Numbers -/

/-- a digit of printf -/
def digit (d : Nat) : Nat := if d < 10 then 48 + d else 87 + d

/-- printf "%u", "%o", "%x" in base `b` (libc contract) -/
def radix (b n : Nat) : List Nat :=
  if h : n < b ∨ b < 2 then [digit n] else radix b (n / b) ++ [digit (n % b)]
termination_by n
decreasing_by exact Nat.div_lt_self (by omega) (by omega)

/-- src/print_fields.h:321 PRINT_VAL_D of a long long -/
def valD (v : Int) : List Nat := if v < 0 then 45 :: radix 10 v.natAbs else radix 10 v.natAbs

/-- src/print_fields.h:324 PRINT_VAL_U -/
def valU (v : Nat) : List Nat := radix 10 v

/-- src/print_fields.h:327 PRINT_VAL_X, "%#llx" -/
def valX (v : Nat) : List Nat := if v = 0 then [48] else 48 :: 120 :: radix 16 v

/-- src/print_fields.h:330 PRINT_VAL_03O, "%#03llo": a leading zero, and at least three digits -/
def valO (v : Nat) : List Nat :=
  let s := if v = 0 then [48] else 48 :: radix 8 v
  List.replicate (3 - s.length) 48 ++ s

/-! ### Showing -/

/-- src/defs.h:455-469 -/
def RVAL_MASK : Nat := 0o17
def RVAL_STR : Nat := 0o20
def RVAL_NONE : Nat := 0o40

/-- What the text depends on: the personality, `u_rval`, `u_error`, `-e raw`, what the decoder returned (`sys_res`), the
text it left in `auxstr`, the marks of injection, and the elapsed time as text.  What follows a descriptor or process id
(paths, names, contexts) and `strerror` are parameters. -/
structure Shown where
  names : Names
  pers : Pers
  got : Got
  raw : Bool
  res : Nat
  aux : Option (List Nat)
  tampered : Bool
  poked : Bool
  delayed : Bool
  time : Option (List Nat)
  strerror : Nat → List Nat
  fdInfo : Int → List Nat
  pidInfo : Int → List Nat

/-- src/print_fields.h:303-308 `tprints_sysret_string` -/
def note (s : List Nat) : List Nat := codes " (" ++ s ++ codes ")"

/-- src/syscall.c:432-448 `print_err_ret` -/
def printErrRet (S : Shown) : List Nat :=
  codes " " ++ valD S.got.rval ++
    match errName S.names S.got.err with
    | some e => codes " " ++ e ++ note (S.strerror S.got.err)
    | none => codes " (errno " ++ valU S.got.err ++ codes ")"

/-- src/syscall.c:777-785 `print_erestart` -/
def printErestart (s l : String) : List Nat := codes " ?" ++ codes " " ++ codes s ++ note (codes l)

/-- src/syscall.c:936-1003: the value of a call that did not fail, by the format -/
def printValue (S : Shown) : List Nat :=
  let v := S.got.rval
  let u := (v % 2 ^ 64).toNat
  match S.res % (RVAL_MASK + 1) with
  | 1 => valX (if S.pers.klong8 then u else u % 2 ^ 32)
  | 2 => valO (if S.pers.klong8 then u else u % 2 ^ 32)
  | 0 => valU (if S.pers.klong8 then u else u % 2 ^ 32)
  | 8 => if !S.pers.klong8 || decide (u ≤ 2 ^ 31 - 1) then valD (s32 v) ++ S.fdInfo (s32 v) else valD v
  | 9 | 10 | 11 | 12 => valD (s32 v) ++ S.pidInfo (s32 v)
  | _ => codes "?"

/-- src/syscall.c:870-1004: what follows "=" -/
def printRet (S : Shown) : List Nat :=
  if S.raw then
    if S.got.err ≠ 0 then printErrRet S else codes " " ++ valX (S.got.rval % 2 ^ 64).toNat
  else if ¬ (S.res.testBit 5) ∧ S.got.err ≠ 0 then
    if S.got.err = 512 then printErestart "ERESTARTSYS" "To be restarted if SA_RESTART is set"
    else if S.got.err = 513 then printErestart "ERESTARTNOINTR" "To be restarted"
    else if S.got.err = 514 then printErestart "ERESTARTNOHAND" "To be restarted if no handler"
    else if S.got.err = 516 then printErestart "ERESTART_RESTARTBLOCK" "Interrupted by signal"
    else printErrRet S
  else
    codes " " ++ if S.res.testBit 5 then codes "?" else printValue S

/-- src/syscall.c:764-775 `print_injected_note` -/
def injectedNote (S : Shown) : List Nat :=
  (if S.tampered && S.poked then note (codes "INJECTED: args, retval")
   else if S.poked then note (codes "INJECTED: args")
   else if S.tampered then note (codes "INJECTED")
   else []) ++
  (if S.delayed then note (codes "DELAYED") else [])

/-- src/syscall.c:868-1018: the text from "=" to the end of the line; with `-e raw` no decoder is called and `sys_res` is 0
(839-848) -/
def resultText (S : Shown) : List Nat :=
  codes "=" ++ printRet S ++
    (match S.aux with
     | some a => if !S.raw && S.res.testBit 4 then note a else []
     | none => []) ++
    injectedNote S ++
    (match S.time with
     | some t => codes " <" ++ t ++ codes ">"
     | none => [])

/-- src/util.c:65-70: nanoseconds per unit, digits of a fraction of a second, name -/
def timeUnits : List (Nat × Nat × List Nat) :=
  [(1000000000, 0, codes "s"), (1000000, 3, codes "ms"), (1000, 6, codes "us"), (1, 9, codes "ns")]

/-- src/strace.c:2635-2642, option `-T` / `--syscall-times[=unit]`, with src/util.c:61-83 `str2timescale_ex` through
`str2timescale_optarg` (src/defs.h:1567): (`Tflag_width`, `Tflag_scale`); `none` is the fatal error.  A missing argument
leaves the width 6. -/
def tOpt : Option (List Nat) → Option (Nat × Nat)
  | none => some (6, 1000)
  | some [] => none
  | some a => (timeUnits.find? fun u => Time.caseEq u.2.2 a).map fun u => (u.2.1, u.1)

/-- src/syscall.c:1011-1016: the elapsed time between the brackets; `none` is undefined behaviour in `ts_sub` -/
def elapsed (width scale : Nat) (ts etime : Time.Ts) : Option (List Nat) :=
  match Time.tsSub ts etime with
  | none => none
  | some d => some (valD d.sec ++ if width ≠ 0 then codes "." ++ Base.decPad width (d.nsec / scale).toNat else [])

end Strace.Result
