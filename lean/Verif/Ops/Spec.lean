import Verif.Ops.Model
/-!
# What the operations of futex, fsconfig, quotactl, keyctl and ptrace do with their arguments

From the kernel's interface and the manual pages, not from the decoders: which arguments an operation looks at, and how; and what
it means that they are shown.
-/
namespace Strace.Ops.Spec
open Strace.Prctl (Mem)

/-- What an operation does with an argument. -/
inductive Use
  /-- it looks at all the 64 bits -/
  | num (i : Nat)
  /-- it looks at the low 32 bits -/
  | low (i : Nat)
  /-- it reads a structure of `n` bytes at that address -/
  | rd (i n : Nat)
  /-- it fills a structure of `n` bytes at that address -/
  | wr (i n : Nat)
  /-- it reads a string, of at most `n` bytes with its end -/
  | str (i n : Nat)
  /-- it reads a path -/
  | path (i : Nat)
  /-- it reads `n` bytes of data -/
  | data (i n : Nat)
  /-- it fills a buffer with `n` bytes of data -/
  | out (i n : Nat)
  /-- it takes it as the address of something that has a length of its own -/
  | mem (i : Nat)
deriving DecidableEq, Repr

/-- The 32 bits of an argument as a signed number. -/
def signed (x : Nat) : Int := if x % 2 ^ 32 < 2 ^ 31 then (x % 2 ^ 32 : Nat) else (x % 2 ^ 32 : Nat) - 2 ^ 32

/-- futex(2); the command is the operation without FUTEX_PRIVATE_FLAG (128) and FUTEX_CLOCK_REALTIME (256). -/
def futexUses (arg : Nat → Nat) : List Use :=
  let op := arg 1 % 2 ^ 32
  let cmd := op - op % 512 + op % 128
  [.num 0, .low 1] ++
  match cmd with
  | 0 => [.low 2, .rd 3 16]
  | 1 => [.low 2]
  | 2 => [.low 2]
  | 3 => [.low 2, .low 3, .num 4]
  | 4 => [.low 2, .low 3, .num 4, .low 5]
  | 5 => [.low 2, .low 3, .num 4, .low 5]
  | 6 => [.rd 3 16]
  | 7 => []
  | 8 => []
  | 9 => [.low 2, .rd 3 16, .low 5]
  | 10 => [.low 2, .low 5]
  | 11 => [.low 2, .rd 3 16, .num 4]
  | 12 => [.low 2, .low 3, .num 4, .low 5]
  | 13 => [.rd 3 16]
  | _ => []

/-- fsconfig(2): arguments that are not used have to be zero. -/
def fsconfigUses (arg : Nat → Nat) : List Use :=
  [.low 0, .low 1] ++
  match arg 1 % 2 ^ 32 with
  | 0 => [.str 2 256, .num 3, .low 4]
  | 1 => [.str 2 256, .str 3 256, .low 4]
  | 2 => [.str 2 256, .low 4] ++
      (if 0 < signed (arg 4) ∧ signed (arg 4) ≤ 1048576 then [.data 3 (signed (arg 4)).toNat] else [])
  | 3 => [.str 2 256, .path 3, .low 4]
  | 4 => [.str 2 256, .path 3, .low 4]
  | 5 => [.str 2 256, .num 3, .low 4]
  | 6 => [.num 2, .num 3, .low 4]
  | 7 => [.num 2, .num 3, .low 4]
  | 8 => [.num 2, .num 3, .low 4]
  | _ => []

/-- quotactl(2): the command `cmd`, the identifier and the address. -/
def quotaUses (cmd : Nat) : List Use :=
  match cmd with
  | 0x800001 => []
  | 0x800002 => [.low 2, .path 3]
  | 0x800003 => []
  | 0x800004 => [.wr 3 4]
  | 0x800005 => [.wr 3 24]
  | 0x800006 => [.rd 3 24]
  | 0x800007 => [.low 2, .wr 3 68]
  | 0x800008 => [.low 2, .rd 3 68]
  | 0x800009 => [.low 2, .wr 3 72]
  | 0x5801 => [.rd 3 4]
  | 0x5802 => [.rd 3 4]
  | 0x5803 => [.low 2, .wr 3 112]
  | 0x5804 => [.low 2, .rd 3 112]
  | 0x5805 => [.wr 3 80]
  | 0x5806 => [.rd 3 4]
  | 0x5807 => []
  | 0x5808 => [.wr 3 160]
  | 0x5809 => [.low 2, .wr 3 112]
  | _ => [.low 2, .num 3]

/-- keyctl(2), for the result `rval`; the structure with parameters of KEYCTL_DH_COMPUTE is optional. -/
def keyctlUses (arg : Nat → Nat) (rval : Nat) : List Use :=
  [.low 0] ++
  match arg 0 % 2 ^ 32 with
  | 0 => [.low 1, .low 2]
  | 1 => [.str 1 (2 ^ 64 - 1)]
  | 2 => [.low 1, .data 2 (arg 3), .num 3]
  | 3 => [.low 1]
  | 4 => [.low 1, .low 2, .low 3]
  | 5 => [.low 1, .low 2]
  | 6 => [.low 1, .out 2 (min rval (arg 3)), .num 3]
  | 7 => [.low 1]
  | 8 => [.low 1, .low 2]
  | 9 => [.low 1, .low 2]
  | 10 => [.low 1, .str 2 (2 ^ 64 - 1), .str 3 (2 ^ 64 - 1), .low 4]
  | 11 => [.low 1, .out 2 (min rval (arg 3)), .num 3]
  | 12 => [.low 1, .data 2 (arg 3), .num 3, .low 4]
  | 13 => [.low 1, .low 2, .low 3]
  | 14 => [.low 1]
  | 15 => [.low 1, .low 2]
  | 16 => [.low 1]
  | 17 => [.low 1, .out 2 (min rval (arg 3)), .num 3]
  | 18 => []
  | 19 => [.low 1, .low 2, .low 3, .low 4]
  | 20 => [.low 1, .mem 2, .low 3, .low 4]
  | 21 => [.low 1]
  | 22 => [.low 1, .low 2]
  | 23 => [.rd 1 12, .out 2 (min rval (arg 3)), .num 3, .rd 4 56]
  | 24 => [.low 1, .num 2, .str 3 (2 ^ 64 - 1), .wr 4 56]
  | 25 => [.rd 1 40, .str 2 (2 ^ 64 - 1), .mem 3, .mem 4]
  | 26 => [.rd 1 40, .str 2 (2 ^ 64 - 1), .mem 3, .mem 4]
  | 27 => [.rd 1 40, .str 2 (2 ^ 64 - 1), .mem 3, .mem 4]
  | 28 => [.rd 1 40, .str 2 (2 ^ 64 - 1), .mem 3, .mem 4]
  | 29 => [.low 1, .str 2 (2 ^ 64 - 1), .str 3 (2 ^ 64 - 1)]
  | 30 => [.low 1, .low 2, .low 3, .low 4]
  | 31 => [.mem 1, .num 2]
  | _ => [.num 1, .num 2, .num 3, .num 4]

/-- The requests of ptrace that make the process go on, with the signal `data`: PTRACE_CONT, PTRACE_SINGLESTEP, PTRACE_DETACH,
PTRACE_SYSCALL, PTRACE_SYSEMU, PTRACE_SYSEMU_SINGLESTEP, PTRACE_SINGLEBLOCK.  The kernel compares all the bits of it. -/
def resuming : List Nat := [7, 9, 17, 24, 31, 32, 33]

/-- ptrace(2) on x86_64, the request being argument 0, then the process, `addr` and `data`. -/
def ptraceUses (arg : Nat → Nat) : List Use :=
  let req := arg 0
  if req = 0 then [.num 0]
  else
    [.num 0, .low 1] ++
    -- PTRACE_KILL, PTRACE_ATTACH, PTRACE_INTERRUPT, PTRACE_LISTEN
    if req = 8 ∨ req = 16 ∨ req = 0x4207 ∨ req = 0x4208 then []
    -- PTRACE_PEEKTEXT, PTRACE_PEEKDATA, PTRACE_PEEKUSER
    else if req = 1 ∨ req = 2 ∨ req = 3 then [.num 2, .wr 3 8]
    else if req ∈ resuming then [.num 3]
    -- PTRACE_GETREGS, SETREGS, GETFPREGS, SETFPREGS
    else if req = 12 then [.wr 3 216]
    else if req = 13 then [.rd 3 216]
    else if req = 14 then [.wr 3 512]
    else if req = 15 then [.rd 3 512]
    -- PTRACE_SETOPTIONS, PTRACE_OLDSETOPTIONS
    else if req = 0x4200 ∨ req = 21 then [.num 3]
    -- PTRACE_GETEVENTMSG, GETSIGINFO, SETSIGINFO
    else if req = 0x4201 then [.wr 3 8]
    else if req = 0x4202 then [.wr 3 128]
    else if req = 0x4203 then [.rd 3 128]
    -- PTRACE_GETREGSET, SETREGSET
    else if req = 0x4204 ∨ req = 0x4205 then [.low 2, .mem 3]
    -- PTRACE_PEEKSIGINFO
    else if req = 0x4209 then [.rd 2 16, .mem 3]
    -- PTRACE_GETSIGMASK, SETSIGMASK: the length has to be 8
    else if req = 0x420a then [.num 2] ++ (if arg 2 = 8 then [.wr 3 8] else [])
    else if req = 0x420b then [.num 2] ++ (if arg 2 = 8 then [.rd 3 8] else [])
    -- PTRACE_SECCOMP_GET_FILTER, SECCOMP_GET_METADATA, GET_SYSCALL_INFO, SET_SYSCALL_INFO
    else if req = 0x420c ∨ req = 0x420d ∨ req = 0x420e ∨ req = 0x4212 then [.num 2, .mem 3]
    -- PTRACE_POKETEXT, POKEDATA, POKEUSER, SEIZE, and all others
    else [.num 2, .num 3]

/-- What a call does with its arguments. -/
def uses (s : Sys) (arg : Nat → Nat) (rval : Nat) : List Use :=
  match s with
  | .futex => futexUses arg
  | .fsconfig => fsconfigUses arg
  | .quotactl => [.low 0, .path 1] ++ quotaUses (arg 0 % 2 ^ 32 / 256)
  | .quotactlFd => [.low 0, .low 1] ++ quotaUses (arg 1 % 2 ^ 32 / 256)
  | .keyctl => keyctlUses arg rval
  | .ptrace => ptraceUses arg

/-- The argument that a token is of. -/
def idx : Tok → Option Nat
  | .sep => none
  | .num i _ => some i
  | .int i _ => some i
  | .addr i _ => some i
  | .off i _ _ => some i
  | .bytes i _ => some i
  | .str i _ => some i
  | .array i _ _ => some i
  | .begin_ i _ => some i
  | .finish _ => none

/-- The end of a structure that is shown in two parts. -/
def isFinish : Tok → Bool
  | .finish _ => true
  | _ => false

/-- The arguments shown, and `none` for each separator; what ends a structure belongs to the argument before it. -/
def shape (l : List Tok) : List (Option Nat) := (l.filter fun t => !isFinish t).map idx

/-- The arguments shown. -/
def args (l : List Tok) : List Nat := l.filterMap idx

/-- The bytes `l` are in memory at address `a`. -/
def BytesAt (m : Mem) (a : Nat) (l : List Nat) : Prop := ∀ k, k < l.length → m (a + k) = some (l.getD k 0)

/-- `n` bytes at address `a` can be read. -/
def Readable (m : Mem) (a n : Nat) : Prop := ∀ k, k < n → (m (a + k)).isSome = true

/-- The number in `n` bytes of memory from address `a` on, the byte `k` counting 256^k. -/
def le (m : Mem) (a : Nat) : Nat → Nat
  | 0 => 0
  | n + 1 => le m a n + 256 ^ n * (m (a + n)).getD 0

/-- The string `s` is at address `a`, its zero byte after it, or it is as long as is looked at. -/
def StringAt (m : Mem) (a n : Nat) (s : List Nat) : Prop :=
  s.length ≤ n ∧ BytesAt m a s ∧ 0 ∉ s ∧ (s.length < n → m (a + s.length) = some 0)

/-- The token gives all the 64 bits of argument `i`. -/
def Tells (users : List (Nat × String)) (arg : Nat → Nat) (i : Nat) (t : Tok) : Prop :=
  t = .num i (arg i) ∨ t = .addr i (arg i)
    ∨ ∃ name delta base, t = .off i name delta ∧ (base, name) ∈ users ∧ base + delta = arg i

/-- The token gives the low 32 bits of argument `i`. -/
def TellsLow (arg : Nat → Nat) (i : Nat) (t : Tok) : Prop :=
  t = .num i (arg i) ∨ t = .num i (arg i % 2 ^ 32) ∨ t = .int i (signed (arg i))

/-- The token is the contents of memory `m` at argument `i`, of `n` bytes, if `ok` and they can be read; else the address. -/
def Contents (m : Mem) (arg : Nat → Nat) (ok : Prop) (i n : Nat) (t : Tok) : Prop :=
  (ok ∧ Readable m (arg i) n → ∃ l, t = .bytes i l ∧ l.length = n ∧ BytesAt m (arg i) l)
    ∧ (¬ (ok ∧ Readable m (arg i) n) → t = .addr i (arg i))

/-- The token is the first `lim` bytes of a string of which `n` bytes are looked at; if it cannot be read, the address. -/
def Str (m : Mem) (arg : Nat → Nat) (i n lim : Nat) (t : Tok) : Prop :=
  (∀ s, arg i ≠ 0 → StringAt m (arg i) n s → t = .str i (s.take lim))
    ∧ ((¬ ∃ s, arg i ≠ 0 ∧ StringAt m (arg i) n s) → t = .addr i (arg i))

/-- What is shown at the beginning and at the end shows what the call does with an argument. -/
def Shown (users : List (Nat × String)) (c : Call) (early late : List Tok) : Use → Prop
  | .num i => ∃ t ∈ early ++ late, Tells users c.arg i t
  | .low i => ∃ t ∈ early ++ late, TellsLow c.arg i t
  | .rd i n => ∃ t ∈ early, Contents c.before c.arg (c.arg i ≠ 0 ∧ c.verbose = true) i n t
  | .wr i n => ∃ t ∈ early ++ late, Contents c.after c.arg (c.arg i ≠ 0 ∧ c.verbose = true ∧ c.failed = false) i n t
  | .str i n => ∃ t ∈ early, Str c.before c.arg i (min (c.strlen + 1) n) c.strlen t
  | .path i => ∃ t ∈ early, Str c.before c.arg i 4096 4095 t
  | .data i n => ∃ t ∈ early, ∃ l, Contents c.before c.arg (c.arg i ≠ 0) i (min (c.strlen + 1) n) l ∧
      ((∃ b, l = .bytes i b ∧ t = .bytes i (b.take c.strlen)) ∨ l = .addr i (c.arg i) ∧ t = l)
  | .out i n => ∃ t ∈ late, ∃ l, Contents c.after c.arg (c.arg i ≠ 0 ∧ c.failed = false) i (min (c.strlen + 1) n) l ∧
      ((∃ b, l = .bytes i b ∧ t = .bytes i (b.take c.strlen)) ∨ l = .addr i (c.arg i) ∧ t = l)
  | .mem i => ∃ t ∈ early ++ late, idx t = some i

/-- What is shown with memory `m` is the truth: numbers are those of the arguments, and bytes those of memory.  The structures
shown in two parts have two numbers of 8 bytes, the second as it was when the call began and as it is in the end. -/
def Honest (users : List (Nat × String)) (c : Call) (m : Mem) : Tok → Prop
  | .sep => 0 = 0
  | .num i v => v = c.arg i ∨ v = c.arg i % 2 ^ 32
  | .int i v => v = signed (c.arg i)
  | .addr i v => v = c.arg i
  | .off i name delta => ∃ base, (base, name) ∈ users ∧ base + delta = c.arg i
  | .bytes i l => BytesAt m (c.arg i) l
  | .str i l => BytesAt m (c.arg i) l ∧ 0 ∉ l
  | .array i a _ => a = c.arg i
  | .begin_ i f =>
    f = [le m (c.arg i) 8] ∨ f = [le m (c.arg i) 8, le c.before (c.arg i + 8) 8]
  | .finish f => f = [] ∨ f = [le m (c.arg 3 + 8) 8]

/-- What strace does not show as it should: the structure with parameters of KEYCTL_DH_COMPUTE, and the signal of the requests
of ptrace that make the process go on. -/
def Excepted (s : Sys) (arg : Nat → Nat) (u : Use) : Prop :=
  (s = .keyctl ∧ arg 0 % 2 ^ 32 = 23 ∧ u = .rd 4 56) ∨ (s = .ptrace ∧ arg 0 ∈ resuming ∧ u = .num 3)

end Strace.Ops.Spec
