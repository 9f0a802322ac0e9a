import Verif.Args.Model
/-!
# Multiplexed calls: socketcall and ipc

`decode_socket_subcall`, `decode_ipc_subcall` (syscall.c) and the decoders of System V IPC calls, for tracees with 4-byte
words (i386, and 32-bit tracees of other builds; not s390, which differs in src/syscall.c:313-314 and src/ipc_sem.c:77-78).
Addresses and register values are below 2^32.  `rd a` is the word at address `a` of the tracee on entry to the call, if it
can be read, and `rx a` the same on exit.
-/
namespace Strace.Args

/-- src/linux/generic/subcallent.h:15-34: the entries after SYS_socket_subcall, number of arguments and name -/
def socketTab : List (Nat × String) :=
  [(3, "socket"), (3, "bind"), (3, "connect"), (2, "listen"), (3, "accept"), (3, "getsockname"), (3, "getpeername"),
   (4, "socketpair"), (4, "send"), (4, "recv"), (6, "sendto"), (6, "recvfrom"), (2, "shutdown"), (5, "setsockopt"),
   (5, "getsockopt"), (3, "sendmsg"), (3, "recvmsg"), (4, "accept4"), (5, "recvmmsg"), (4, "sendmmsg")]

/-- src/linux/generic/subcallent.h:36 -/
def socketNsubcalls : Int := 21

/-- a 32-bit value taken as `int` -/
def s32 (x : Nat) : Int := ((x : Int) + 2 ^ 31) % 2 ^ 32 - 2 ^ 31

/-- `umoven` of `n` words: all or nothing -/
def words (rd : Nat → Option Nat) (addr : Nat) : Nat → Option (List Nat)
  | 0 => some []
  | n + 1 =>
    match rd addr, words rd (addr + 4) n with
    | some w, some ws => some (w :: ws)
    | _, _ => none

/-- src/syscall.c:280-302 `decode_socket_subcall`: the call and its arguments; `none` leaves `socketcall` as it is -/
def socketSubcall (rd : Nat → Option Nat) (u0 u1 : Nat) : Option (String × List Nat) :=
  let call := s32 u0
  if call < 1 ∨ call ≥ socketNsubcalls then none
  else
    match socketTab[call.toNat - 1]? with
    | none => none
    | some (nargs, name) => (words rd u1 nargs).map fun buf => (name, buf)

/-- src/linux/generic/subcallent.h:39-50: number of arguments -/
def ipcTab : List (Nat × Nat) :=
  [(1, 4), (2, 3), (3, 4), (4, 5), (11, 4), (12, 5), (13, 2), (14, 4), (21, 4), (22, 4), (23, 3), (24, 4)]

/-- src/syscall.c:306-341 `decode_ipc_subcall`: number of the call, version, and the arguments, moved down by one; `none`
leaves `ipc` as it is -/
def ipcSubcall (u : Nat → Nat) : Option (Nat × Nat × (Nat → Nat)) :=
  let call := u 0 % 2 ^ 32
  let version := call >>> 16
  let call := if version ≠ 0 then call &&& 0xffff else call
  match ipcTab.find? fun e => e.1 == call with
  | none => none
  | some (_, n) => some (call, version, fun i => if i < n then u (i + 1) else u i)

/-- what is shown of an argument: a signed number, an unsigned number or set of flags, what is at an address -/
inductive Item
  | int (v : Int)
  | uns (v : Nat)
  | ptr (a : Nat)
deriving Repr, DecidableEq

/-- src/ipc_semctl.c:161-167: the commands whose buffer is shown on exit: IPC_STAT, IPC_INFO, SEM_STAT, SEM_INFO,
SEM_STAT_ANY -/
def semExit : List Nat := [2, 3, 18, 19, 20]

/-- The arguments shown by the decoders: src/ipc_msg.c:23-145, src/ipc_sem.c:51-121, src/ipc_semctl.c:121-194,
src/ipc_msgctl.c:110-164, src/ipc_shm.c:30-113, src/ipc_shmctl.c:130-188.  `ind` is `indirect_ipccall` (src/defs.h:476); `version` is what
src/syscall.c:320 stored in the private datum of the tracee.  That datum is not overwritten when `semctl` sets it (src/strace.c:1083-1093),
so that on exit `semctl` finds the version there (src/ipc_semctl.c:167, 179).  `msgrcv` reads its pair on exit
(src/ipc_msg.c:110-129), hence `rx`.  Simplified: how a set of flags is broken up and how the object at an address is shown
are left out, an argument is its number or its address. -/
def ipcShown (rd rx : Nat → Option Nat) (ind : Bool) (version call : Nat) (u : Nat → Nat) : List Item :=
  match call with
  | 1 => [.int (s32 (u 0)), .ptr (if ind then u 3 else u 1), .uns (if ind then u 1 else u 2)]
  | 2 => [.uns (u 0), .int (s32 (u 1)), .uns (u 2)]
  | 3 =>
    let cmd := u 2 % 2 ^ 32 &&& (2 ^ 32 - 1 - 0x100)
    [.int (s32 (u 0)), .int (s32 (u 1)), .uns (u 2)] ++
      match (if ind then rd (u 3) else some (u 3)) with
      | none => [.ptr (u 3)]
      | some addr => [.ptr (if cmd ∈ semExit ∧ version ≠ 0 then version else addr)]
  | 4 => [.int (s32 (u 0)), .ptr (if ind then u 3 else u 1), .uns (if ind then u 1 else u 2), .ptr (if ind then u 4 else u 3)]
  | 11 => [.int (s32 (u 0))] ++ if ind then [.ptr (u 3), .uns (u 1), .uns (u 2)] else [.ptr (u 1), .uns (u 2), .uns (u 3)]
  | 12 =>
    [.int (s32 (u 0))] ++
      if ind then
        (if version ≠ 0 then [.ptr (u 3), .uns (u 1), .int (s32 (u 4))]
         else
           match rx (u 3), rx (u 3 + 4) with
           | some p, some t => [.ptr p, .uns (u 1), .int (s32 t)]
           | _, _ => [.ptr (u 3), .uns (u 1)]) ++ [.uns (u 2)]
      else [.ptr (u 1), .uns (u 2), .int (s32 (u 3)), .uns (u 4)]
  | 13 => [.uns (u 0), .uns (u 1)]
  | 14 | 24 => [.int (s32 (u 0)), .uns (u 1), .ptr (if ind then u 3 else u 2)]
  | 21 => [.int (s32 (u 0))] ++ if ind then [.ptr (u 3), .uns (u 1)] else [.ptr (u 1), .uns (u 2)]
  | 22 => [.ptr (if ind then u 3 else u 0)]
  | 23 => [.uns (u 0), .uns (u 1), .uns (u 2)]
  | _ => []

/-- src/ipc_shm.c:91-105: the value shown for a successful `shmat` is `rval`, but that of an indirect call is in memory -/
def shmatValue (rx : Nat → Option Nat) (ind : Bool) (u : Nat → Nat) (rval : Nat) : Option Nat :=
  if ind then rx (u 2) else some rval

end Strace.Args
