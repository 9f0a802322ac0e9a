import Verif.StringToUint.Model
/-!
# -u: whose program it is, and the last steps before it is executed (src/strace.c, src/filter_seccomp.c)

Identifiers are numbers below 2^32; 2^32-1 is `(uid_t) -1`.  A process has the capabilities it needs exactly when its
effective user is 0.
-/
namespace Strace.Cred
open Strace.StringToUint

/-! ### The argument of -u -/

/-- `strchr(username, ':')`: what follows the colon, src/strace.c:1531 -/
def afterColon : List Nat → Option (List Nat)
  | [] => none
  | c :: t => if c = 58 then some t else afterColon t

/-- `(uid_t) -1` -/
def noId : Nat := 2 ^ 32 - 1

/-- `(uid_t) string_to_uint_ex(s, NULL, max_uid, ":")`, src/strace.c:1535-1544; the failure value -1 becomes `(uid_t) -1` -/
def idOf (s : List Nat) : Nat :=
  match stringToUintEx s (2 ^ 32 - 1 - 1) (some [58]) with
  | none => noId
  | some (v, _) => v.toNat

/-- `is_uid_gid_pair`, src/strace.c:1528-1547; `none` is `false` -/
def uidGidPair (s : List Nat) : Option (Nat × Nat) :=
  match afterColon s with
  | none => none
  | some t => some (idOf s, idOf t)

/-- a user of the system: `getpwnam`, and the list `initgroups` finds for them -/
structure User where
  uid : Nat
  gid : Nat
  groups : List Nat

/-- who the program is to run as -/
structure Who where
  uid : Nat
  gid : Nat
  /-- the supplementary groups to set, from `initgroups` or none, src/strace.c:1597-1603 -/
  groups : List Nat
  deriving DecidableEq

/-- what is said about the argument of -u -/
inductive Parsed
  | notRoot
  | badPair
  | unknown
  | run (w : Who)
  deriving DecidableEq

/-- src/strace.c:2993-3014 -/
def parseUser (getpw : List Nat → Option User) (root : Bool) (s : List Nat) : Parsed :=
  if root = false then .notRoot
  else
    match uidGidPair s with
    | some (u, g) => if u = noId ∨ g = noId then .badPair else .run ⟨u, g, []⟩
    | none =>
      match getpw s with
      | none => .unknown
      | some p => .run ⟨p.uid, p.gid, p.groups⟩

/-! ### The last steps before execve -/

/-- credentials of a process: credentials(7) -/
structure Creds where
  ruid : Nat
  euid : Nat
  suid : Nat
  rgid : Nat
  egid : Nat
  sgid : Nat
  groups : List Nat
  deriving DecidableEq

/-- system calls made after the filter may have been installed -/
inductive Sys
  | setreuid
  | getpid
  | kill
  | alarm
  | wait4
  | execve
  deriving DecidableEq

/-- the process that is to become the tracee: `filter` that the seccomp filter is installed, `nnp` that no_new_privs is
set, `traced` that the tracer is attached -/
structure Proc where
  cr : Creds
  filter : Bool
  nnp : Bool
  traced : Bool
  deriving DecidableEq

/-- setgroups(2): CAP_SETGID -/
def setgroups (c : Creds) (gs : List Nat) : Option Creds :=
  if c.euid = 0 then some { c with groups := gs } else none

/-- setregid(2) with two identifiers that are given -/
def setregid (c : Creds) (r e : Nat) : Option Creds :=
  if c.euid = 0 ∨ ((r = c.rgid ∨ r = c.egid) ∧ (e = c.rgid ∨ e = c.egid ∨ e = c.sgid)) then
    some { c with rgid := r, egid := e, sgid := e }
  else none

/-- setreuid(2) with two identifiers that are given -/
def setreuid (c : Creds) (r e : Nat) : Option Creds :=
  if c.euid = 0 ∨ ((r = c.ruid ∨ r = c.euid) ∧ (e = c.ruid ∨ e = c.euid ∨ e = c.suid)) then
    some { c with ruid := r, euid := e, suid := e }
  else none

/-- the executable file: `st_mode & S_ISUID`, `S_ISGID`, `st_uid`, `st_gid` -/
structure Exe where
  setuid : Bool
  setgid : Bool
  uid : Nat
  gid : Nat

/-- how strace was called.  `seccomp` is `seccomp_filtering`, `sel` says which calls `traced_by_seccomp` selects
(src/filter_seccomp.c:255-265, where execve always is, by TRACE_SECCOMP_DEFAULT), `early` that a daemonized tracer
happens to attach although nobody waits for it. -/
structure Cfg where
  user : Option Who
  exe : Exe
  seccomp : Bool
  sel : Sys → Bool
  daemon : Bool
  early : Bool

/-- `params_for_tracee.run_euid`, src/strace.c:1768 -/
def runEuid (x : Exe) (w : Who) : Nat := if x.setuid then x.uid else w.uid

/-- `params_for_tracee.run_egid`, src/strace.c:1769 -/
def runEgid (x : Exe) (w : Who) : Nat := if x.setgid then x.gid else w.gid

/-- whether a system call is made: one the filter selects fails with ENOSYS when no tracer is attached (seccomp(2),
SECCOMP_RET_TRACE) -/
def works (c : Cfg) (p : Proc) (s : Sys) : Bool :=
  !(p.filter && (c.sel s || s == .execve) && !p.traced)

/-- `maybe_init_seccomp_filter`, src/strace.c:1550-1557, and `init_seccomp_filter`, src/filter_seccomp.c:679-696: without
CAP_SYS_ADMIN no_new_privs is set first.  Other failures are not modelled. -/
def initFilter (c : Cfg) (p : Proc) : Proc :=
  if c.seccomp then
    { p with filter := true, nnp := p.nnp || decide (p.cr.euid ≠ 0) }
  else p

/-- how it ends: with the message of src/strace.c:1599 or 1602, of 1605, of 1614 or 1641, or by execve -/
inductive End
  | died (what : Sys)
  | diedGroups
  | diedGid
  | runs (p : Proc)
  deriving DecidableEq

/-- src/strace.c:1589-1615 -/
def become (c : Cfg) (p : Proc) : Except End Proc :=
  match c.user with
  | none => .ok p
  | some w =>
    match setgroups p.cr w.groups with
    | none => .error .diedGroups
    | some c1 =>
      match setregid c1 w.gid (runEgid c.exe w) with
      | none => .error .diedGid
      | some c2 =>
        if works c (initFilter c { p with cr := c2 }) .setreuid = false then .error (.died .setreuid)
        else
          match setreuid c2 w.uid (runEuid c.exe w) with
          | none => .error (.died .setreuid)
          | some c3 => .ok { initFilter c { p with cr := c2 } with cr := c3 }

/-- src/strace.c:1617-1635: the process stops, and its tracer attaches (src/strace.c:1801-1830) or, having traced it by
PTRACE_TRACEME, sets its options; with -D the process waits until the tracer has attached (src/strace.c:1518-1523 kills
the process that is waited for).  When the stop or the wait fails, no tracer is there yet. -/
def await (c : Cfg) (p : Proc) : Proc :=
  if c.daemon then
    if works c p .wait4 then { p with traced := true } else { p with traced := c.early }
  else if works c p .getpid && works c p .kill then { p with traced := true } else p

/-- src/strace.c:1638-1641 -/
def finish (c : Cfg) (p : Proc) : End :=
  if works c (if c.user.isNone then initFilter c p else p) .execve = false then .died .execve
  else .runs (if c.user.isNone then initFilter c p else p)

/-- `exec_or_die`, src/strace.c:1573-1642, as far as credentials, the filter and the tracer are concerned -/
def execOrDie (c : Cfg) (p : Proc) : End :=
  match become c p with
  | .error e => e
  | .ok p' => finish c (await c p')

/-- where `kill(getpid(), SIGSTOP)` goes, src/strace.c:1626: to the process itself, nowhere if `kill` fails, or to
the process group -N when `getpid` returns -N (here the raw -38 of ENOSYS, as libc functions that never fail do) -/
inductive Target
  | self
  | nobody
  | group (n : Nat)
  deriving DecidableEq

/-- src/strace.c:1626 -/
def stopTarget (c : Cfg) (p : Proc) : Target :=
  if works c p .kill = false then .nobody
  else if works c p .getpid = false then .group 38
  else .self

end Strace.Cred
