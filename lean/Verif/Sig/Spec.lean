import Verif.Sized.Model
/-!
# What a siginfo_t holds: the kernel's siginfo_layout (kernel/signal.c) and the members of the union of each layout
-/
namespace Strace.Sig
open Strace.Sized (Byte)

inductive Layout
  | kill
  | timer
  | poll
  | fault
  | faultMceerr
  | faultBnderr
  | faultPkuerr
  | faultPerf
  | chld
  | rt
  | sys
  deriving DecidableEq, Repr

/-- the largest code that is specific to a signal: NSIGILL, NSIGFPE, NSIGSEGV, NSIGBUS, NSIGTRAP, NSIGCHLD, NSIGPOLL, NSIGSYS -/
def ownLimit (sig : Int) : Int :=
  match sig with
  | 4 => 11
  | 8 => 15
  | 11 => 10
  | 7 => 5
  | 5 => 6
  | 17 => 6
  | 29 => 6
  | 31 => 2
  | _ => 0

/-- `siginfo_layout` -/
def layout (sig code : Int) : Layout :=
  if 0 < code ∧ code < 0x80 then
    if code ≤ ownLimit sig then
      if sig = 7 ∧ 4 ≤ code ∧ code ≤ 5 then .faultMceerr
      else if sig = 11 ∧ code = 3 then .faultBnderr
      else if sig = 11 ∧ code = 4 then .faultPkuerr
      else if sig = 5 ∧ code = 6 then .faultPerf
      else if sig = 17 then .chld
      else if sig = 29 then .poll
      else if sig = 31 then .sys
      else .fault
    else if code ≤ 6 then .poll
    else .kill
  else if code = -2 then .timer
  else if code = -5 then .poll
  else if code < 0 then .rt
  else .kill

inductive Kind
  | signed
  | unsigned
  /-- a user's number: unsigned, but all ones is -1 -/
  | user

structure Member where
  name : String
  off : Nat
  len : Nat
  kind : Kind

/-- the members of a layout, with their offsets on x86-64 -/
def members64 : Layout → List Member
  | .kill => [⟨"si_pid", 16, 4, .signed⟩, ⟨"si_uid", 20, 4, .user⟩]
  | .timer => [⟨"si_timerid", 16, 4, .unsigned⟩, ⟨"si_overrun", 20, 4, .signed⟩, ⟨"si_int", 24, 4, .signed⟩,
      ⟨"si_ptr", 24, 8, .unsigned⟩]
  | .poll => [⟨"si_band", 16, 8, .signed⟩, ⟨"si_fd", 24, 4, .signed⟩]
  | .fault => [⟨"si_addr", 16, 8, .unsigned⟩]
  | .faultMceerr => [⟨"si_addr", 16, 8, .unsigned⟩, ⟨"si_addr_lsb", 24, 2, .unsigned⟩]
  | .faultBnderr => [⟨"si_addr", 16, 8, .unsigned⟩, ⟨"si_lower", 32, 8, .unsigned⟩, ⟨"si_upper", 40, 8, .unsigned⟩]
  | .faultPkuerr => [⟨"si_addr", 16, 8, .unsigned⟩, ⟨"si_pkey", 32, 4, .unsigned⟩]
  | .faultPerf => [⟨"si_addr", 16, 8, .unsigned⟩, ⟨"si_perf_data", 24, 8, .unsigned⟩, ⟨"si_perf_type", 32, 4, .unsigned⟩,
      ⟨"si_perf_flags", 36, 4, .unsigned⟩]
  | .chld => [⟨"si_pid", 16, 4, .signed⟩, ⟨"si_uid", 20, 4, .user⟩, ⟨"si_status", 24, 4, .signed⟩, ⟨"si_utime", 32, 8, .unsigned⟩,
      ⟨"si_stime", 40, 8, .unsigned⟩]
  | .rt => [⟨"si_pid", 16, 4, .signed⟩, ⟨"si_uid", 20, 4, .user⟩, ⟨"si_int", 24, 4, .signed⟩, ⟨"si_ptr", 24, 8, .unsigned⟩]
  | .sys => [⟨"si_call_addr", 16, 8, .unsigned⟩, ⟨"si_syscall", 24, 4, .unsigned⟩, ⟨"si_arch", 28, 4, .unsigned⟩]

/-- the members of a layout, with their offsets on i386 -/
def members32 : Layout → List Member
  | .kill => [⟨"si_pid", 12, 4, .signed⟩, ⟨"si_uid", 16, 4, .user⟩]
  | .timer => [⟨"si_timerid", 12, 4, .unsigned⟩, ⟨"si_overrun", 16, 4, .signed⟩, ⟨"si_int", 20, 4, .signed⟩,
      ⟨"si_ptr", 20, 4, .unsigned⟩]
  | .poll => [⟨"si_band", 12, 4, .signed⟩, ⟨"si_fd", 16, 4, .signed⟩]
  | .fault => [⟨"si_addr", 12, 4, .unsigned⟩]
  | .faultMceerr => [⟨"si_addr", 12, 4, .unsigned⟩, ⟨"si_addr_lsb", 16, 2, .unsigned⟩]
  | .faultBnderr => [⟨"si_addr", 12, 4, .unsigned⟩, ⟨"si_lower", 20, 4, .unsigned⟩, ⟨"si_upper", 24, 4, .unsigned⟩]
  | .faultPkuerr => [⟨"si_addr", 12, 4, .unsigned⟩, ⟨"si_pkey", 20, 4, .unsigned⟩]
  | .faultPerf => [⟨"si_addr", 12, 4, .unsigned⟩, ⟨"si_perf_data", 16, 4, .unsigned⟩, ⟨"si_perf_type", 20, 4, .unsigned⟩,
      ⟨"si_perf_flags", 24, 4, .unsigned⟩]
  | .chld => [⟨"si_pid", 12, 4, .signed⟩, ⟨"si_uid", 16, 4, .user⟩, ⟨"si_status", 20, 4, .signed⟩, ⟨"si_utime", 24, 4, .unsigned⟩,
      ⟨"si_stime", 28, 4, .unsigned⟩]
  | .rt => [⟨"si_pid", 12, 4, .signed⟩, ⟨"si_uid", 16, 4, .user⟩, ⟨"si_int", 20, 4, .signed⟩, ⟨"si_ptr", 20, 4, .unsigned⟩]
  | .sys => [⟨"si_call_addr", 12, 4, .unsigned⟩, ⟨"si_syscall", 16, 4, .unsigned⟩, ⟨"si_arch", 20, 4, .unsigned⟩]

def members (w : Nat) (l : Layout) : List Member := if w = 8 then members64 l else members32 l

/-- a little-endian number: its byte `i` has the weight `256 ^ i` -/
def bytesVal (b : List Byte) (off : Nat) : Nat → Nat
  | 0 => 0
  | n + 1 => bytesVal b off n + (b.getD (off + n) 0).val * 256 ^ n

/-- the value of a member -/
def Member.val (b : List Byte) (m : Member) : Int :=
  match m.kind with
  | .unsigned => (bytesVal b m.off m.len : Nat)
  | .signed => if bytesVal b m.off m.len < 2 ^ (8 * m.len - 1) then (bytesVal b m.off m.len : Nat)
      else (bytesVal b m.off m.len : Int) - 2 ^ (8 * m.len)
  | .user => if bytesVal b m.off m.len = 2 ^ 32 - 1 then -1 else (bytesVal b m.off m.len : Nat)

/-- the codes of the kernel, include/uapi/asm-generic/siginfo.h: for one signal, or for any (`none`) -/
def abiCodes : List (String × Option Int × Int) :=
  [("SI_USER", none, 0), ("SI_KERNEL", none, 128), ("SI_QUEUE", none, -1), ("SI_TIMER", none, -2), ("SI_MESGQ", none, -3),
    ("SI_ASYNCIO", none, -4), ("SI_SIGIO", none, -5), ("SI_TKILL", none, -6), ("SI_DETHREAD", none, -7), ("SI_ASYNCNL", none, -60),
    ("ILL_ILLOPC", some 4, 1), ("ILL_ILLOPN", some 4, 2), ("ILL_ILLADR", some 4, 3), ("ILL_ILLTRP", some 4, 4),
    ("ILL_PRVOPC", some 4, 5), ("ILL_PRVREG", some 4, 6), ("ILL_COPROC", some 4, 7), ("ILL_BADSTK", some 4, 8),
    ("TRAP_BRKPT", some 5, 1), ("TRAP_TRACE", some 5, 2), ("TRAP_BRANCH", some 5, 3), ("TRAP_HWBKPT", some 5, 4),
    ("TRAP_UNK", some 5, 5), ("TRAP_PERF", some 5, 6),
    ("BUS_ADRALN", some 7, 1), ("BUS_ADRERR", some 7, 2), ("BUS_OBJERR", some 7, 3), ("BUS_MCEERR_AR", some 7, 4),
    ("BUS_MCEERR_AO", some 7, 5),
    ("FPE_INTDIV", some 8, 1), ("FPE_INTOVF", some 8, 2), ("FPE_FLTDIV", some 8, 3), ("FPE_FLTOVF", some 8, 4),
    ("FPE_FLTUND", some 8, 5), ("FPE_FLTRES", some 8, 6), ("FPE_FLTINV", some 8, 7), ("FPE_FLTSUB", some 8, 8),
    ("FPE_FLTUNK", some 8, 14), ("FPE_CONDTRAP", some 8, 15),
    ("SEGV_MAPERR", some 11, 1), ("SEGV_ACCERR", some 11, 2), ("SEGV_BNDERR", some 11, 3), ("SEGV_PKUERR", some 11, 4),
    ("SEGV_ACCADI", some 11, 5), ("SEGV_ADIDERR", some 11, 6), ("SEGV_ADIPERR", some 11, 7), ("SEGV_MTEAERR", some 11, 8),
    ("SEGV_MTESERR", some 11, 9), ("SEGV_CPERR", some 11, 10),
    ("CLD_EXITED", some 17, 1), ("CLD_KILLED", some 17, 2), ("CLD_DUMPED", some 17, 3), ("CLD_TRAPPED", some 17, 4),
    ("CLD_STOPPED", some 17, 5), ("CLD_CONTINUED", some 17, 6),
    ("POLL_IN", some 29, 1), ("POLL_OUT", some 29, 2), ("POLL_MSG", some 29, 3), ("POLL_ERR", some 29, 4), ("POLL_PRI", some 29, 5),
    ("POLL_HUP", some 29, 6),
    ("SYS_SECCOMP", some 31, 1), ("SYS_USER_DISPATCH", some 31, 2)]

end Strace.Sig
