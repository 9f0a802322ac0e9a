import Verif.Prctl.Model
/-!
# Model of calls whose operation decides what their arguments are

futex, keyctl, quotactl, quotactl_fd, fsconfig and ptrace: what each operation shows of its arguments, when the call begins
and when it ends, with the separators.

Simplifications: a number that is shown as flags, as a name, or in decimal or hexadecimal form is the number itself; a
structure in memory is shown by its bytes (its fields are not told apart; structures of keyctl and quotactl that are
abbreviated are shown in full); `printfd`, `printpid` and `printuid` show the number only; the programs are 64-bit ones of
x86_64.
-/
namespace Strace.Ops
open Strace.Prctl (Mem Phase umoven umovestr number)

/-- A call: its arguments, memory when it begins and when it ends, whether it has failed, its result, `-e verbose`, and the
limit set with `-s`. -/
structure Call where
  arg : Nat → Nat
  before : Mem
  after : Mem
  failed : Bool
  rval : Nat
  verbose : Bool
  strlen : Nat

/-- What is printed; `i` is the argument that it is of. -/
inductive Tok
  /-- print_fields.h, `tprint_arg_next` -/
  | sep
  /-- a number, its name or its flags -/
  | num (i v : Nat)
  /-- a number of type int -/
  | int (i : Nat) (v : Int)
  /-- an address -/
  | addr (i v : Nat)
  /-- an address of the user area, as a name and an offset -/
  | off (i : Nat) (name : String) (delta : Nat)
  /-- a structure or a buffer in memory: its bytes -/
  | bytes (i : Nat) (l : List Nat)
  /-- a string in memory -/
  | str (i : Nat) (s : List Nat)
  /-- an array, or a structure of which a part is filled: where it is and its length (area Filled has what is shown of it) -/
  | array (i a n : Nat)
  /-- the beginning of a structure that is shown in two parts, with two of its fields -/
  | begin_ (i : Nat) (f : List Nat)
  /-- its end: what follows the fields shown before -/
  | finish (f : List Nat)
deriving DecidableEq, Repr

/-- The memory of a phase (src/defs.h:384-385, `entering` and `exiting`). -/
def memAt (ph : Phase) (c : Call) : Mem := if ph = .entering then c.before else c.after

/-- `printaddr` (src/defs.h), which prints all the 64 bits. -/
def addr (c : Call) (i : Nat) : Tok := .addr i (c.arg i)

/-- The macros PRINT_VAL_U and PRINT_VAL_X (src/print_fields.h), and `printxval64` and `printflags64`, of a long number. -/
def long (c : Call) (i : Nat) : Tok := .num i (c.arg i)

/-- A number of type unsigned int: the assignments of `tcp->u_arg` to it (as in src/futex.c:37-39). -/
def uint (c : Call) (i : Nat) : Tok := .num i (c.arg i % 2 ^ 32)

/-- A number of type int: the assignments of `tcp->u_arg` to it (as in src/fsconfig.c:14-18). -/
def int (c : Call) (i : Nat) : Tok := .int i (Strace.Prctl.toInt (c.arg i))

/-- ucopy.c, `umove_or_printaddr`, then the structure of `n` bytes. -/
def obj (ph : Phase) (c : Call) (i n : Nat) : Tok :=
  if c.arg i = 0 ∨ c.verbose = false ∨ (ph = .exiting ∧ c.failed = true) then addr c i
  else
    match umoven (memAt ph c) (c.arg i) n with
    | some l => .bytes i l
    | none => addr c i

/-- src/util.c:1425-1492, `printstr_ex` of a string that ends with a zero byte; `len` is the limit of the caller. -/
def printstr (ph : Phase) (c : Call) (i len : Nat) : Tok :=
  if c.arg i = 0 then .addr i 0
  else
    match umovestr (memAt ph c) (c.arg i) (min (c.strlen + 1) len) with
    | some l => .str i (l.take c.strlen)
    | none => addr c i

/-- util.c, `printpath`: at most PATH_MAX - 1 bytes are shown. -/
def printpath (ph : Phase) (c : Call) (i : Nat) : Tok :=
  if c.arg i = 0 then .addr i 0
  else
    match umovestr (memAt ph c) (c.arg i) 4096 with
    | some l => .str i (l.take 4095)
    | none => addr c i

/-- src/util.c:1425-1492, `printstr_ex` of `len` bytes (`printstrn`). -/
def printstrn (ph : Phase) (c : Call) (i len : Nat) : Tok :=
  if c.arg i = 0 then .addr i 0
  else
    match umoven (memAt ph c) (c.arg i) (min (c.strlen + 1) len) with
    | some l => .bytes i (l.take c.strlen)
    | none => addr c i

/-! ### futex -/

/-- src/futex.c:29-182: all is shown on entering.  `FUTEX_WAKE_OP`: the operation in `val3` is modelled in area Pack. -/
def futex (c : Call) : List Tok :=
  let val := uint c 2
  let val2 := uint c 3
  let val3 := uint c 5
  let ts := obj .entering c 3 16
  let uaddr2 := addr c 4
  [addr c 0, .sep, uint c 1] ++
  match c.arg 1 % 128 with
  -- src/futex.c:50-56 FUTEX_WAIT
  | 0 => [.sep, val, .sep, ts]
  -- src/futex.c:57-61 FUTEX_LOCK_PI, FUTEX_LOCK_PI2
  | 6 => [.sep, ts]
  | 13 => [.sep, ts]
  -- src/futex.c:62-71 FUTEX_WAIT_BITSET
  | 9 => [.sep, val, .sep, ts, .sep, val3]
  -- src/futex.c:72-78 FUTEX_WAKE_BITSET
  | 10 => [.sep, val, .sep, val3]
  -- src/futex.c:79-88 FUTEX_REQUEUE
  | 3 => [.sep, val, .sep, val2, .sep, uaddr2]
  -- src/futex.c:89-102 FUTEX_CMP_REQUEUE, FUTEX_CMP_REQUEUE_PI
  | 4 => [.sep, val, .sep, val2, .sep, uaddr2, .sep, val3]
  | 12 => [.sep, val, .sep, val2, .sep, uaddr2, .sep, val3]
  -- src/futex.c:103-147 FUTEX_WAKE_OP
  | 5 => [.sep, val, .sep, val2, .sep, uaddr2, .sep, val3]
  -- src/futex.c:148-157 FUTEX_WAIT_REQUEUE_PI
  | 11 => [.sep, val, .sep, ts, .sep, uaddr2]
  -- src/futex.c:158-162 FUTEX_FD, FUTEX_WAKE
  | 2 => [.sep, val]
  | 1 => [.sep, val]
  -- src/futex.c:163-165 FUTEX_UNLOCK_PI, FUTEX_TRYLOCK_PI
  | 7 => []
  | 8 => []
  -- src/futex.c:166-178
  | _ => [.sep, val, .sep, addr c 3, .sep, uaddr2, .sep, val3]

/-! ### fsconfig -/

/-- src/fsconfig.c:12-89; the commands are those of xlat/fsconfig_cmds.in, FSCONFIG_SET_FLAG being 0. -/
def fsconfig (c : Call) : List Tok :=
  let cmd := c.arg 1 % 2 ^ 32
  let key := if cmd ≤ 5 then printstr .entering c 2 256 else addr c 2
  let aux := Strace.Prctl.toInt (c.arg 4)
  let value :=
    if cmd = 1 then printstr .entering c 3 256
    else if cmd = 3 ∨ cmd = 4 then printpath .entering c 3
    else if cmd = 2 ∧ 0 ≤ aux ∧ aux ≤ 1024 * 1024 then printstrn .entering c 3 aux.toNat
    else addr c 3
  [int c 0, .sep, uint c 1, .sep, key, .sep, value, .sep, int c 4]

/-! ### quotactl -/

/-- src/quota.c:95-441; the commands are those of linux/quota.h and linux/dqblk_xfs.h, `e` says whether this is on entering, `id`
and `data` are arguments 2 and 3.  The second part says whether the decoder is finished. -/
def quotaData (ph : Phase) (c : Call) (cmd : Nat) : List Tok × Bool :=
  let e := ph = .entering
  let id := [.sep, uint c 2]
  /- src/quota.c:109-118, 129-155 and the like of the other commands that get something -/
  let get (l : List Tok) (n : Nat) : List Tok × Bool := if e then (l ++ [.sep], false) else ([obj ph c 3 n], true)
  /- src/quota.c:119-156 and the like of the commands that set something -/
  let set (l : List Tok) (n : Nat) : List Tok × Bool := ((if e then l ++ [.sep] else []) ++ [obj ph c 3 n], true)
  match cmd with
  -- src/quota.c:99-102 Q_QUOTAOFF, Q_SYNC, Q_XQUOTASYNC
  | 0x800003 => ([], true)
  | 0x800001 => ([], true)
  | 0x5807 => ([], true)
  -- src/quota.c:103-108 Q_QUOTAON
  | 0x800002 => (id ++ [.sep, printpath ph c 3], true)
  -- src/quota.c:109-157 Q_GETQUOTA, Q_SETQUOTA
  | 0x800007 => get id 68
  | 0x800008 => set id 68
  -- src/quota.c:158-202 Q_GETNEXTQUOTA
  | 0x800009 => get id 72
  -- src/quota.c:203-272 Q_XGETQUOTA, Q_XGETNEXTQUOTA, Q_XSETQLIM
  | 0x5803 => get id 112
  | 0x5809 => get id 112
  | 0x5804 => set id 112
  -- src/quota.c:273-289 Q_GETFMT
  | 0x800004 => get [] 4
  -- src/quota.c:290-317 Q_GETINFO, Q_SETINFO
  | 0x800005 => get [] 24
  | 0x800006 => set [] 24
  -- src/quota.c:318-359 Q_XGETQSTAT
  | 0x5805 => get [] 80
  -- src/quota.c:360-405 Q_XGETQSTATV
  | 0x5808 => get [] 160
  -- src/quota.c:406-432 Q_XQUOTAON, Q_XQUOTAOFF, Q_XQUOTARM
  | 0x5801 => ([.sep, obj ph c 3 4], true)
  | 0x5802 => ([.sep, obj ph c 3 4], true)
  | 0x5806 => ([.sep, obj ph c 3 4], true)
  -- src/quota.c:433-438
  | _ => (id ++ [.sep, addr c 3], true)

/-- src/quota.c:468-489 `SYS_FUNC(quotactl)` -/
def quotactl (ph : Phase) (c : Call) : List Tok × Bool :=
  let r := quotaData ph c (c.arg 0 % 2 ^ 32 / 256)
  if ph = .entering then ([uint c 0, .sep, printpath ph c 1] ++ r.1, r.2) else r

/-- src/quota.c:491-508 `SYS_FUNC(quotactl_fd)` -/
def quotactlFd (ph : Phase) (c : Call) : List Tok × Bool :=
  let r := quotaData ph c (c.arg 1 % 2 ^ 32 / 256)
  if ph = .entering then ([uint c 0, .sep, uint c 1] ++ r.1, r.2) else r

/-! ### keyctl -/

/-- src/keyctl.c:115-118, 276-279: the smaller of the result and the length; the result of a call that has succeeded is not
negative. -/
def keyLen (c : Call) (len : Nat) : Nat := if c.rval > len then len else c.rval

/-- src/keyctl.c:403-447 `keyctl_pkey_op` -/
def pkeyOp (ph : Phase) (c : Call) (out : Bool) : List Tok × Bool :=
  if ph = .entering then
    match obj .entering c 1 40 with
    | .bytes _ l =>
      let inLen := number ((l.drop 4).take 4)
      let len2 := number ((l.drop 8).take 4)
      ([.bytes 1 l, .sep, printstr ph c 2 (2 ^ 64 - 1), .sep, printstrn ph c 3 inLen, .sep] ++
        (if out = true then [] else [printstrn ph c 4 len2]), !out)
    | t => ([t, .sep, printstr ph c 2 (2 ^ 64 - 1), .sep, addr c 3, .sep, addr c 4], true)
  else
    -- the length is that of the structure as it was on entering, kept with `set_tcb_priv_ulong`
    let len2 := match obj .entering c 1 40 with
      | .bytes _ l => number ((l.drop 8).take 4)
      | _ => 0
    ([if c.failed = true then addr c 4 else printstrn ph c 4 len2], true)

/-- src/keyctl.c:549-667 without the command: the cases of the switch, and the functions they call (src/keyctl.c:74-528). -/
def keyCases (ph : Phase) (c : Call) (cmd : Nat) : List Tok × Bool :=
  let e := ph = .entering
  /- src/keyctl.c:105-126 -/
  let read : List Tok × Bool :=
    if e then ([int c 1, .sep], false)
    else ([if c.failed = true then addr c 2 else printstrn ph c 2 (keyLen c (c.arg 3)), .sep, long c 3], false)
  match cmd with
  -- KEYCTL_GET_KEYRING_ID, src/keyctl.c:74-81
  | 0 => ([int c 1, .sep, int c 2], true)
  -- KEYCTL_JOIN_SESSION_KEYRING, src/keyctl.c:554-556
  | 1 => ([printstr ph c 1 (2 ^ 64 - 1)], true)
  -- KEYCTL_UPDATE, src/keyctl.c:83-94
  | 2 => ([int c 1, .sep, printstrn ph c 2 (c.arg 3), .sep, long c 3], true)
  -- KEYCTL_REVOKE, KEYCTL_CLEAR, KEYCTL_INVALIDATE, KEYCTL_ASSUME_AUTHORITY, src/keyctl.c:562-567
  | 3 => ([int c 1], true)
  | 7 => ([int c 1], true)
  | 21 => ([int c 1], true)
  | 16 => ([int c 1], true)
  -- KEYCTL_LINK, KEYCTL_UNLINK, src/keyctl.c:96-103
  | 8 => ([int c 1, .sep, int c 2], true)
  | 9 => ([int c 1, .sep, int c 2], true)
  -- KEYCTL_DESCRIBE, KEYCTL_READ, KEYCTL_GET_SECURITY, src/keyctl.c:574-578
  | 6 => read
  | 11 => read
  | 17 => read
  -- KEYCTL_SEARCH, src/keyctl.c:128-142
  | 10 => ([int c 1, .sep, printstr ph c 2 (2 ^ 64 - 1), .sep, printstr ph c 3 (2 ^ 64 - 1), .sep, int c 4], true)
  -- KEYCTL_CHOWN, src/keyctl.c:144-155
  | 4 => ([int c 1, .sep, uint c 2, .sep, uint c 3], true)
  -- KEYCTL_SETPERM, src/keyctl.c:239-246
  | 5 => ([int c 1, .sep, uint c 2], true)
  -- KEYCTL_INSTANTIATE, src/keyctl.c:157-171
  | 12 => ([int c 1, .sep, printstrn ph c 2 (c.arg 3), .sep, long c 3, .sep, int c 4], true)
  -- KEYCTL_NEGATE, src/keyctl.c:190-201
  | 13 => ([int c 1, .sep, uint c 2, .sep, int c 3], true)
  -- KEYCTL_SET_REQKEY_KEYRING, src/keyctl.c:600-603
  | 14 => ([int c 1], true)
  -- KEYCTL_SET_TIMEOUT, src/keyctl.c:219-227
  | 15 => ([int c 1, .sep, uint c 2], true)
  -- KEYCTL_SESSION_TO_PARENT, src/keyctl.c:609-610
  | 18 => ([], true)
  -- KEYCTL_REJECT, src/keyctl.c:203-217
  | 19 => ([int c 1, .sep, uint c 2, .sep, uint c 3, .sep, int c 4], true)
  -- KEYCTL_INSTANTIATE_IOV, src/keyctl.c:173-188 (area Iov has `tprint_iov`)
  | 20 => ([int c 1, .sep, .array 2 (c.arg 2) (c.arg 3), .sep, long c 3, .sep, int c 4], true)
  -- KEYCTL_GET_PERSISTENT, src/keyctl.c:229-237
  | 22 => ([uint c 1, .sep, int c 2], true)
  -- KEYCTL_DH_COMPUTE, src/keyctl.c:246-318; src/fetch_struct_keyctl_kdf_params.c:17-39 reads the last structure without regard to failure
  | 23 =>
    if e then ([obj ph c 1 12, .sep], false)
    else
      ([if c.failed = true then addr c 2 else printstrn ph c 2 (keyLen c (c.arg 3)), .sep, long c 3, .sep,
        match umoven (memAt ph c) (c.arg 4) 56 with
        | some l => .bytes 4 l
        | none => addr c 4], false)
  -- KEYCTL_PKEY_QUERY, src/keyctl.c:320-370
  | 24 =>
    if e then ([int c 1, .sep, long c 2, .sep, printstr ph c 3 (2 ^ 64 - 1), .sep], false)
    else ([obj ph c 4 56], false)
  -- KEYCTL_PKEY_ENCRYPT, KEYCTL_PKEY_DECRYPT, KEYCTL_PKEY_SIGN, src/keyctl.c:632-635
  | 25 => pkeyOp ph c true
  | 26 => pkeyOp ph c true
  | 27 => pkeyOp ph c true
  -- KEYCTL_PKEY_VERIFY, src/keyctl.c:637-639
  | 28 => ((pkeyOp ph c false).1, true)
  -- KEYCTL_RESTRICT_KEYRING, src/keyctl.c:449-462
  | 29 => ([int c 1, .sep, printstr ph c 2 (2 ^ 64 - 1), .sep, printstr ph c 3 (2 ^ 64 - 1)], true)
  -- KEYCTL_MOVE, src/keyctl.c:464-481
  | 30 => ([int c 1, .sep, int c 2, .sep, int c 3, .sep, uint c 4], true)
  -- KEYCTL_CAPABILITIES, src/keyctl.c:507-528
  | 31 =>
    if e then ([], false)
    else ([if c.failed = true then addr c 1 else .array 1 (c.arg 1) (min (c.arg 2) c.rval), .sep, long c 2], false)
  -- src/keyctl.c:653-664
  | _ => ([long c 1, .sep, long c 2, .sep, long c 3, .sep, long c 4], true)

/-- src/keyctl.c:530-668 `SYS_FUNC(keyctl)`; the command is an int, here its 32 bits: the commands are not negative -/
def keyctl (ph : Phase) (c : Call) : List Tok × Bool :=
  let cmd := c.arg 0 % 2 ^ 32
  let r := keyCases ph c cmd
  if ph = .entering then ([int c 0] ++ (if cmd ≠ 18 then [.sep] else []) ++ r.1, r.2) else r

/-! ### ptrace -/

/-- src/xlat.c:118-146 `xlat_search_eq_or_less`: the loop; `base`, `cur` and `nmemb` as in the code. -/
def searchLe (d : List (Nat × String)) (v : Nat) (base cur nmemb : Nat) : Nat ⊕ Nat :=
  if nmemb = 0 then .inl cur
  else
    let cur := base + nmemb / 2
    let x := (d.getD cur (0, "")).1
    if v = x then .inr cur
    else if v > x then searchLe d v (cur + 1) cur ((nmemb - 1) / 2)
    else searchLe d v base cur (nmemb / 2)
termination_by nmemb
decreasing_by all_goals omega

/-- src/xlat.c:118-146: the entry found.  The tables end with an entry of which the string is NULL. -/
def lookupLe (d : List (Nat × String)) (v : Nat) : Option (Nat × String) :=
  match searchLe d v 0 0 d.length with
  | .inr cur => d[cur]?
  | .inl cur =>
    if v < (d.getD cur (0, "")).1 then if cur > 0 then d[cur - 1]? else none
    else d[cur]?

/-- src/ptrace.c:55-84 `print_user_offset_addr`, in the abbreviated style; `users` is struct_user_offsets. -/
def userOffset (users : List (Nat × String)) (c : Call) (i : Nat) : Tok :=
  let last := (users.getLast?.getD (0, "")).1
  match lookupLe users (c.arg i) with
  | none => addr c i
  | some (base, name) => if c.arg i > base ∧ base = last then addr c i else .off i name (c.arg i - base)

/-- src/linux/x86_64/userent.h:8-30, src/linux/i386/userent0.h:8-21, linux/generic/userent0.h: the table of x86_64, with the offsets of
the `struct user` of <sys/user.h>. -/
def users64 : List (Nat × String) :=
  [(0, "8*R15"), (8, "8*R14"), (16, "8*R13"), (24, "8*R12"), (32, "8*RBP"), (40, "8*RBX"), (48, "8*R11"), (56, "8*R10"),
   (64, "8*R9"), (72, "8*R8"), (80, "8*RAX"), (88, "8*RCX"), (96, "8*RDX"), (104, "8*RSI"), (112, "8*RDI"),
   (120, "8*ORIG_RAX"), (128, "8*RIP"), (136, "8*CS"), (144, "8*EFL"), (152, "8*RSP"), (160, "8*SS"),
   (216, "offsetof(struct user, u_fpvalid)"), (224, "offsetof(struct user, i387)"),
   (736, "offsetof(struct user, u_tsize)"), (744, "offsetof(struct user, u_dsize)"),
   (752, "offsetof(struct user, u_ssize)"), (760, "offsetof(struct user, start_code)"),
   (768, "offsetof(struct user, start_stack)"), (776, "offsetof(struct user, signal)"),
   (784, "offsetof(struct user, reserved)"), (792, "offsetof(struct user, u_ar0)"),
   (800, "offsetof(struct user, u_fpstate)"), (808, "offsetof(struct user, magic)"),
   (816, "offsetof(struct user, u_comm)"), (848, "offsetof(struct user, u_debugreg)"), (912, "sizeof(struct user)")]

/-- fetch_struct_iovec.c: the address and the length, of 8 bytes each. -/
def fetchIov (m : Mem) (a : Nat) : Option (Nat × Nat) :=
  (umoven m a 16).map fun l => (number (l.take 8), number (l.drop 8))

/-- src/ptrace.c:175-208 `decode_getregset`; the registers that are shown of some sets are not modelled, only their address -/
def getRegset (ph : Phase) (c : Call) : List Tok × Bool :=
  match fetchIov (memAt ph c) (c.arg 3) with
  | none => ([addr c 3], true)
  | some (base, len) =>
    if ph = .entering then ([], false)
    else
      let old := match fetchIov c.before (c.arg 3) with
        | some (_, l) => l
        | none => 0
      ([.begin_ 3 [base, old], .finish (if old = len then [] else [len])], false)

/-- src/ptrace.c:210-241 `decode_setregset` -/
def setRegset (ph : Phase) (c : Call) : List Tok × Bool :=
  if ph = .entering then
    match fetchIov c.before (c.arg 3) with
    | none => ([addr c 3], true)
    | some (base, len) => ([.begin_ 3 [base, len]], false)
  else
    let old := match fetchIov c.before (c.arg 3) with
      | some (_, l) => l
      | none => 0
    match fetchIov c.after (c.arg 3) with
    | some (_, len) => ([.finish (if old = len then [] else [len])], false)
    | none => ([.finish []], false)

/-- src/ptrace.c:109-156 `decode_seccomp_metadata`; the flags are shown if they can be read, else "???" (`tprint_unavailable`), here
nothing -/
def seccompMetadata (ph : Phase) (c : Call) (size : Nat) : List Tok × Bool :=
  if ph = .entering then
    if size < 8 then ([addr c 3], true)
    else
      match obj ph c 3 8 with
      | .bytes _ l => ([.begin_ 3 [number l]], false)
      | t => ([t], true)
  else if c.failed = false ∧ size > 8 then
    if size < 16 then ([.finish []], false)
    else
      match umoven c.after (c.arg 3 + 8) 8 with
      | some l => ([.finish [number l]], false)
      | none => ([.finish []], false)
  else ([.finish []], false)

/-- src/signal.c:248-271 `print_sigset_addr_len`: the length has to be 8, both current_wordsize and NSIG_BYTES being 8 -/
def sigset (ph : Phase) (c : Call) (i len : Nat) : Tok := if len < 8 ∨ len > 8 then addr c i else obj ph c i len

/-- src/ptrace.c:247-450 `decode_ptrace_entering` on x86_64 -/
def ptraceEnter (users : List (Nat × String)) (c : Call) : List Tok × Bool :=
  let req := c.arg 0
  let p0 := [long c 0]
  -- src/ptrace.c:299-302 PTRACE_TRACEME
  if req = 0 then (p0, true)
  else
    let p1 := p0 ++ [.sep, int c 1]
    -- src/ptrace.c:308-315 PTRACE_ATTACH, PTRACE_INTERRUPT, PTRACE_KILL, PTRACE_LISTEN
    if req ∈ [16, 0x4207, 8, 0x4208] then (p1, true)
    -- src/ptrace.c:344-358 PTRACE_SETREGS, PTRACE_SETFPREGS
    else if req = 13 then (p1 ++ [.sep, obj .entering c 3 216], true)
    else if req = 15 then (p1 ++ [.sep, obj .entering c 3 512], true)
    -- src/ptrace.c:359-373 PTRACE_GETREGS, PTRACE_GETFPREGS
    else if req ∈ [12, 14] then (p1 ++ [.sep], false)
    else
      -- src/ptrace.c:317-343, 381-386
      let p2 := p1 ++ [.sep,
        if req ∈ [3, 6] then userOffset users c 2
        else if req ∈ [0x4204, 0x4205] then uint c 2
        else if req ∈ [0x420a, 0x420b, 0x420c, 0x420d, 0x420e, 0x4212] then long c 2
        else if req = 0x4209 then obj .entering c 2 16
        else addr c 2, .sep]
      -- src/ptrace.c:388-404 PTRACE_CONT, DETACH, SYSCALL, SINGLESTEP, SINGLEBLOCK, SYSEMU, SYSEMU_SINGLESTEP
      if req ∈ [7, 17, 24, 9, 33, 31, 32] then (p2 ++ [int c 3], true)
      -- src/ptrace.c:405-411 PTRACE_SEIZE, SETOPTIONS, OLDSETOPTIONS
      else if req ∈ [0x4206, 0x4200, 21] then (p2 ++ [long c 3], true)
      -- src/ptrace.c:412-414 PTRACE_SETSIGINFO
      else if req = 0x4203 then (p2 ++ [obj .entering c 3 128], true)
      -- src/ptrace.c:415-417 PTRACE_SETSIGMASK
      else if req = 0x420b then (p2 ++ [sigset .entering c 3 (c.arg 2)], true)
      -- src/ptrace.c:418-422 PTRACE_GETREGSET, PTRACE_SETREGSET
      else if req = 0x4204 then (p2 ++ (getRegset .entering c).1, (getRegset .entering c).2)
      else if req = 0x4205 then (p2 ++ (setRegset .entering c).1, (setRegset .entering c).2)
      -- src/ptrace.c:423-424 PTRACE_SECCOMP_GET_METADATA
      else if req = 0x420d then
        (p2 ++ (seccompMetadata .entering c (c.arg 2)).1, (seccompMetadata .entering c (c.arg 2)).2)
      -- src/ptrace.c:425-427 PTRACE_SET_SYSCALL_INFO (area Psi has `print_ptrace_syscall_info`)
      else if req = 0x4212 then (p2 ++ [.array 3 (c.arg 3) (c.arg 2)], true)
      -- src/ptrace.c:428-446 PTRACE_PEEKDATA, PEEKTEXT, PEEKUSER, GETEVENTMSG, GETSIGINFO, GETSIGMASK, PEEKSIGINFO,
      -- SECCOMP_GET_FILTER, GET_SYSCALL_INFO
      else if req ∈ [2, 1, 3, 0x4201, 0x4202, 0x420a, 0x4209, 0x420c, 0x420e] ∧ c.verbose = true then (p2, false)
      else (p2 ++ [addr c 3], true)

/-- src/ptrace.c:452-509 `decode_ptrace_exiting` -/
def ptraceExit (c : Call) : List Tok :=
  let req := c.arg 0
  if req ∈ [2, 1, 3, 0x4201] then [obj .exiting c 3 8]
  else if req = 0x4204 then (getRegset .exiting c).1
  else if req = 0x4205 then (setRegset .exiting c).1
  else if req = 0x4202 then [obj .exiting c 3 128]
  else if req = 0x420a then [sigset .exiting c 3 (c.arg 2)]
  else if req ∈ [0x4209, 0x420c] then [if c.failed = true then addr c 3 else .array 3 (c.arg 3) c.rval]
  else if req = 0x420d then (seccompMetadata .exiting c c.rval).1
  else if req = 0x420e then
    [if c.failed = true then addr c 3 else .array 3 (c.arg 3) (min (c.arg 2) c.rval)]
  else if req = 12 then [obj .exiting c 3 216]
  else if req = 14 then [obj .exiting c 3 512]
  else []

/-! ### all of them -/

inductive Sys | futex | fsconfig | quotactl | quotactlFd | keyctl | ptrace
deriving DecidableEq, Repr

/-- What the decoder prints in a phase, and whether it is finished (src/futex.c:181, src/fsconfig.c:88, src/ptrace.c:511-515). -/
def decoder (users : List (Nat × String)) (s : Sys) (ph : Phase) (c : Call) : List Tok × Bool :=
  match s with
  | .futex => (futex c, true)
  | .fsconfig => (fsconfig c, true)
  | .quotactl => quotactl ph c
  | .quotactlFd => quotactlFd ph c
  | .keyctl => keyctl ph c
  | .ptrace => if ph = .entering then ptraceEnter users c else (ptraceExit c, true)

/-- src/syscall.c:673, 682 and 830-839: the decoder is called on entering, and on exiting unless it has said that it is finished. -/
def early (users : List (Nat × String)) (s : Sys) (c : Call) : List Tok := (decoder users s .entering c).1

/-- See `early`. -/
def late (users : List (Nat × String)) (s : Sys) (c : Call) : List Tok :=
  if (decoder users s .entering c).2 = true then [] else (decoder users s .exiting c).1

end Strace.Ops
