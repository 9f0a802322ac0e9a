import Verif.Sized.Model
/-!
# Signal information: src/printsiginfo.c

`b` is the structure siginfo_t as it lies in memory of a little-endian machine; `w` is the size of a word of the tracee, 8 for x86-64
and 4 for i386.  The offsets are those of siginfo_t in the C library's <signal.h>, which is not part of /repo.  All the optional
members (HAVE_SIGINFO_T_SI_*) are taken to exist, SI_NOINFO, SIGEMT, BUS_OPFETCH, SEGV_STACKFLOW, __SEGV_PSTKOVF not, as on x86; alpha
and sparc are not modelled.
-/
namespace Strace.Sig
open Strace.Sized

/-- a field shown: its name and its value; an error, signal, code, flag or system call is shown by name, which is not modelled here -/
structure F where
  name : String
  v : Int
  deriving DecidableEq, Repr

/-- a field of an unsigned type, or a pointer -/
def un (b : List Byte) (off len : Nat) : Int := (fld b off len : Nat)

/-- a field of a signed type -/
def sg (b : List Byte) (off len : Nat) : Int :=
  if fld b off len < 2 ^ (8 * len - 1) then (fld b off len : Nat) else (fld b off len : Int) - 2 ^ (8 * len)

/-- PRINT_FIELD_ID, src/print_fields.h: an identifier with all bits set is shown as -1 -/
def ident (b : List Byte) (off : Nat) : Int := if fld b off 4 = 2 ^ 32 - 1 then -1 else (fld b off 4 : Nat)

/-- the offset of the union, aligned as a pointer -/
def base (w : Nat) : Nat := if w = 8 then 16 else 12

def signo (b : List Byte) : Int := sg b 0 4
def errno (b : List Byte) : Int := sg b 4 4
def code (b : List Byte) : Int := sg b 8 4

/-- `printsigsource`, src/printsiginfo.c:62-69 -/
def source (w : Nat) (b : List Byte) : List F := [⟨"si_pid", sg b (base w) 4⟩, ⟨"si_uid", ident b (base w + 4)⟩]

/-- `si_ptr` -/
def ptr (w : Nat) (b : List Byte) : Nat := fld b (base w + 8) w

/-- `printsigval`, src/printsiginfo.c:71-78 -/
def sigval (w : Nat) (b : List Byte) : List F := [⟨"si_int", sg b (base w + 8) 4⟩, ⟨"si_ptr", un b (base w + 8) w⟩]

/-- the user's signals, src/printsiginfo.c:115-143 -/
def fromUser (w : Nat) (b : List Byte) : List F :=
  if code b = 0 then source w b
  else if code b = -6 then source w b
  else if code b = -2 then ⟨"si_timerid", un b (base w) 4⟩ :: ⟨"si_overrun", sg b (base w + 4) 4⟩ :: sigval w b
  else if code b = -5 then [⟨"si_band", sg b (base w) w⟩, ⟨"si_fd", sg b (base w + w) 4⟩]
  else source w b ++ (if ptr w b ≠ 0 then sigval w b else [])

/-- `si_addr` -/
def addrF (w : Nat) (b : List Byte) : F := ⟨"si_addr", un b (base w) w⟩

/-- SIGBUS, src/printsiginfo.c:177-189 -/
def busMore (w : Nat) (b : List Byte) : List F :=
  if code b = 4 ∨ code b = 5 then [⟨"si_addr_lsb", un b (base w + w) 2⟩] else []

/-- SIGSEGV, src/printsiginfo.c:190-213 -/
def segvMore (w : Nat) (b : List Byte) : List F :=
  if code b = 3 then [⟨"si_lower", un b (base w + 2 * w) w⟩, ⟨"si_upper", un b (base w + 3 * w) w⟩]
  else if code b = 4 then [⟨"si_pkey", un b (base w + 2 * w) 4⟩]
  else []

/-- SIGTRAP, src/printsiginfo.c:214-245 -/
def trapMore (w : Nat) (b : List Byte) : List F :=
  if code b = 6 then
    [⟨"si_perf_data", un b (base w + w) w⟩, ⟨"si_perf_type", un b (base w + 2 * w) 4⟩, ⟨"si_perf_flags", un b (base w + 2 * w + 4) 4⟩]
  else []

/-- the kernel's signals, src/printsiginfo.c:144-281 -/
def fromKernel (w : Nat) (b : List Byte) : List F :=
  if signo b = 17 then
    source w b ++ [⟨"si_status", sg b (base w + 8) 4⟩, ⟨"si_utime", un b (base w + 8 + w) w⟩, ⟨"si_stime", un b (base w + 8 + 2 * w) w⟩]
  else if signo b = 4 then [addrF w b]
  else if signo b = 8 then [addrF w b]
  else if signo b = 7 then addrF w b :: busMore w b
  else if signo b = 11 then addrF w b :: segvMore w b
  else if signo b = 5 then addrF w b :: trapMore w b
  else if signo b = 29 then
    if 1 ≤ code b ∧ code b ≤ 6 then [⟨"si_band", sg b (base w) w⟩, ⟨"si_fd", sg b (base w + w) 4⟩] else []
  else if signo b = 31 then
    [⟨"si_call_addr", un b (base w) w⟩, ⟨"si_syscall", un b (base w + w) 4⟩, ⟨"si_arch", un b (base w + w + 4) 4⟩]
  else
    (if fld b (base w) 4 ≠ 0 ∨ fld b (base w + 4) 4 ≠ 0 then source w b else []) ++ (if ptr w b ≠ 0 then sigval w b else [])

/-- `print_si_info`, src/printsiginfo.c:107-282 -/
def info (w : Nat) (b : List Byte) : List F :=
  (if errno b ≠ 0 then [⟨"si_errno", fld b 4 4⟩] else []) ++ (if code b ≤ 0 then fromUser w b else fromKernel w b)

/-- `printsiginfo`, src/printsiginfo.c:284-305 -/
def printsiginfo (w : Nat) (b : List Byte) : List F :=
  if signo b ≠ 0 then ⟨"si_signo", signo b⟩ :: ⟨"si_code", code b⟩ :: info w b else []

/-- `printsiginfo_at`, src/printsiginfo.c:307-314: `none` is the address -/
def printsiginfoAt (mem : Nat → Option Byte) (vb : Bool) (w a : Nat) : Option (List F) :=
  (fetch mem vb a 128).map (printsiginfo w)

/-- the codes of every signal, src/xlat/siginfo_codes.in -/
def commonCodes : List (Int × String) :=
  [(0, "SI_USER"), (0x80, "SI_KERNEL"), (-1, "SI_QUEUE"), (-2, "SI_TIMER"), (-3, "SI_MESGQ"), (-4, "SI_ASYNCIO"), (-5, "SI_SIGIO"),
    (-6, "SI_TKILL"), (-7, "SI_DETHREAD"), (-60, "SI_ASYNCNL")]

/-- the codes of single signals, src/printsiginfo.c:83-96 and src/xlat/sig*_codes.in; those of other machines are left out -/
def ownCodes (sig : Int) : List (Int × String) :=
  if sig = 5 then [(1, "TRAP_BRKPT"), (2, "TRAP_TRACE"), (3, "TRAP_BRANCH"), (4, "TRAP_HWBKPT"), (5, "TRAP_UNK"), (6, "TRAP_PERF")]
  else if sig = 17 then
    [(1, "CLD_EXITED"), (2, "CLD_KILLED"), (3, "CLD_DUMPED"), (4, "CLD_TRAPPED"), (5, "CLD_STOPPED"), (6, "CLD_CONTINUED")]
  else if sig = 29 then [(1, "POLL_IN"), (2, "POLL_OUT"), (3, "POLL_MSG"), (4, "POLL_ERR"), (5, "POLL_PRI"), (6, "POLL_HUP")]
  else if sig = 4 then
    [(1, "ILL_ILLOPC"), (2, "ILL_ILLOPN"), (3, "ILL_ILLADR"), (4, "ILL_ILLTRP"), (5, "ILL_PRVOPC"), (6, "ILL_PRVREG"),
      (7, "ILL_COPROC"), (8, "ILL_BADSTK")]
  else if sig = 8 then
    [(1, "FPE_INTDIV"), (2, "FPE_INTOVF"), (3, "FPE_FLTDIV"), (4, "FPE_FLTOVF"), (5, "FPE_FLTUND"), (6, "FPE_FLTRES"),
      (7, "FPE_FLTINV"), (8, "FPE_FLTSUB"), (14, "FPE_FLTUNK"), (15, "FPE_CONDTRAP")]
  else if sig = 11 then
    [(1, "SEGV_MAPERR"), (2, "SEGV_ACCERR"), (3, "SEGV_BNDERR"), (4, "SEGV_PKUERR"), (5, "SEGV_ACCADI"), (6, "SEGV_ADIDERR"),
      (7, "SEGV_ADIPERR"), (8, "SEGV_MTEAERR"), (9, "SEGV_MTESERR"), (10, "SEGV_CPERR")]
  else if sig = 7 then
    [(1, "BUS_ADRALN"), (2, "BUS_ADRERR"), (3, "BUS_OBJERR"), (4, "BUS_MCEERR_AR"), (5, "BUS_MCEERR_AO")]
  else if sig = 31 then [(1, "SYS_SECCOMP"), (2, "SYS_USER_DISPATCH")]
  else []

/-- `print_si_code`, src/printsiginfo.c:80-105: the name of a code, if any -/
def codeName (sig c : Int) : Option String :=
  match commonCodes.lookup c with
  | some n => some n
  | none => (ownCodes sig).lookup c

end Strace.Sig
