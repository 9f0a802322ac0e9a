/-!
# PTRACE_GET_SYSCALL_INFO: src/ptrace_syscall_info.c
-/
namespace Strace.Psi

/-! ## the test at startup -/

/-- what the kernel answers: the members of `struct strace_ptrace_syscall_info`, src/ptrace.h:179-202; `rc` is the size returned,
negative for an error -/
structure Info where
  rc : Int
  op : Nat
  arch : Nat
  ip : Nat
  sp : Nat
  nr : Nat
  args : List Nat
  isError : Nat
  rval : Int
  deriving DecidableEq

/-- what `waitpid` and the requests made at a stop give -/
inductive Ev where
  | waitFails
  | exited (code : Nat)
  | killedBy (sig : Nat)
  | other
  | stopped (sig : Nat) (optionsOk : Bool) (info : Info) (resumeOk : Bool)
  deriving DecidableEq

/-- what becomes of the test: an answer, and whether the child is killed and waited for; `die` is an error that ends strace -/
inductive Out where
  | answer (supported : Bool) (killed waited : Bool)
  | die (killed : Bool)
  | blocked
  deriving DecidableEq

/-- SIGSTOP -/
def sigstop : Nat := 19
/-- SIGTRAP with the bit of PTRACE_O_TRACESYSGOOD -/
def sigtrap80 : Nat := 5 + 128

/-- the calls of the child, src/ptrace_syscall_info.c:53-82, with the address of its empty string; `none` past the end -/
def expArgs (str : Nat) : Nat → Option (Nat × List Nat)
  | 0 => some (80, [str, 0xdad1bef1bad1fed1, 0xdad2bef2bad2fed2, 0xdad3bef3bad3fed3, 0xdad4bef4bad4fed4, 0xdad5bef5bad5fed5])
  | 1 => some (186, [0xdad0bef0caf0bea0, 0xdad1bef1caf1bea1, 0xdad2bef2caf2bea2, 0xdad3bef3caf3bea3, 0xdad4bef4caf4bea4, 0xdad5bef5caf5bea5])
  | 2 => some (231, [0, 0xdad1bef1fac1c0d1, 0xdad2bef2fac2c0d2, 0xdad3bef3fac3c0d3, 0xdad4bef4fac4c0d4, 0xdad5bef5fac5c0d5])
  | _ => none

/-- the results of the calls, src/ptrace_syscall_info.c:106-112; ENOENT is 2 -/
def expExit (pid : Nat) : Nat → Option (Nat × Int)
  | 0 => some (1, -2)
  | 1 => some (0, pid)
  | _ => none

/-- arch, instruction_pointer and stack_pointer are not 0 -/
def common (i : Info) : Bool := decide (i.arch ≠ 0) && decide (i.ip ≠ 0) && decide (i.sp ≠ 0)

/-- the check at the first stop, src/ptrace_syscall_info.c:167-179; `expected_none_size` is 24 -/
def noneOk (i : Info) : Bool := decide (24 ≤ i.rc) && decide (i.op = 0) && common i

/-- the check on entering, src/ptrace_syscall_info.c:192-212; `expected_entry_size` is 80 -/
def entryOk (str n : Nat) (i : Info) : Bool :=
  match expArgs str (n / 2) with
  | some (nr, args) => decide (80 ≤ i.rc) && decide (i.op = 1) && common i && decide (i.nr = nr) && decide (i.args = args)
  | none => false

/-- the check on exiting, src/ptrace_syscall_info.c:213-229; `expected_exit_size` is 33 -/
def exitOk (pid n : Nat) (i : Info) : Bool :=
  match expExit pid (n / 2 - 1) with
  | some (e, v) => decide (33 ≤ i.rc) && decide (i.op = 2) && common i && decide (i.isError = e) && decide (i.rval = v)
  | none => false

/-- the check at a system call stop: which one depends on the number of the stop, src/ptrace_syscall_info.c:189-234 -/
def stopOk (str pid n : Nat) (i : Info) : Bool :=
  match n with
  | 1 | 3 | 5 => entryOk str n i
  | 2 | 4 => exitOk pid n i
  | _ => false

/-- `FAIL` with the child still there, src/ptrace_syscall_info.c:22 and 248-253 -/
def failed : Out := .answer false true true

/-- the loop of `test_ptrace_get_syscall_info`, src/ptrace_syscall_info.c:116-263, from stop number `n` -/
def run (str pid : Nat) : Nat → List Ev → Out
  | _, [] => .blocked
  | _, .waitFails :: _ => .die true
  | n, .exited c :: _ => .answer (decide (c = 0) && decide (n = 6)) false false
  | _, .killedBy _ :: _ => .answer false false false
  | _, .other :: _ => .die true
  | n, .stopped sig optionsOk i resumeOk :: evs =>
    if sig = sigstop then
      if n ≠ 0 then failed
      else if optionsOk = false then .die true
      else if i.rc < 0 then failed
      else if noneOk i = false then failed
      else if resumeOk = false then .die true
      else run str pid (n + 1) evs
    else if sig = sigtrap80 then
      if i.rc < 0 then failed
      else
        if stopOk str pid n i = false then failed
        else if resumeOk = false then .die true
        else run str pid (n + 1) evs
    else failed

/-! ## printing -/

/-- a little-endian number of the bytes fetched; the rest of the structure is 0 -/
def num (b : List Nat) (off : Nat) : Nat → Nat
  | 0 => 0
  | w + 1 => b[off]?.getD 0 + 256 * num b (off + 1) w

/-- a member shown: its name, its value, and whether as an error -/
structure Shown where
  name : String
  value : Nat
  err : Bool
  deriving DecidableEq

/-- the elements of args: `print_local_array_upto`, src/defs.h:1163-1168, with `CLAMP` -/
def argsShown (b : List Nat) (n : Nat) : List Shown :=
  (List.range (min ((n - 32) / 8) 6)).map fun k => ⟨"args", num b (32 + 8 * k) 8, false⟩

/-- `print_psi_entry`, src/ptrace_syscall_info.c:267-283 -/
def psiEntry (b : List Nat) (n : Nat) : List Shown :=
  ⟨"nr", num b 24 8, false⟩ :: if (n - 32) / 8 ≠ 0 then argsShown b n else []

/-- `print_psi_seccomp`, src/ptrace_syscall_info.c:285-305; `expected_seccomp_size` is 84 -/
def psiSeccomp (b : List Nat) (n : Nat) : List Shown :=
  (⟨"nr", num b 24 8, false⟩ :: if (n - 32) / 8 ≠ 0 then argsShown b n else []) ++
  if n ≥ 84 then [⟨"ret_data", num b 80 4, false⟩] else []

/-- `print_psi_exit`, src/ptrace_syscall_info.c:307-322 -/
def psiExit (b : List Nat) (n : Nat) : List Shown :=
  (if n ≥ 33 ∧ num b 32 1 ≠ 0 then ⟨"rval", num b 24 8, true⟩ else ⟨"rval", num b 24 8, false⟩) ::
  if n ≥ 33 then [⟨"is_error", num b 32 1, false⟩] else []

/-- the part that depends on op, src/ptrace_syscall_info.c:375-393 -/
def psiUnion (b : List Nat) (n : Nat) : Nat → List Shown
  | 1 => psiEntry b n
  | 3 => psiSeccomp b n
  | 2 => psiExit b n
  | _ => []

/-- from stack_pointer on, src/ptrace_syscall_info.c:367-393 -/
def psiTail (b : List Nat) (n : Nat) : List Shown :=
  if n < 24 then []
  else ⟨"stack_pointer", num b 16 8, false⟩ ::
    if n < 32 then []
    else psiUnion b n (num b 0 1)

/-- from arch on, src/ptrace_syscall_info.c:356-365 -/
def psiMid (b : List Nat) (n : Nat) : List Shown :=
  if n < 8 then []
  else ⟨"arch", num b 4 4, false⟩ ::
    if n < 16 then []
    else ⟨"instruction_pointer", num b 8 8, false⟩ :: psiTail b n

/-- the members that `print_ptrace_syscall_info`, src/ptrace_syscall_info.c:324-397, shows of the bytes fetched -/
def psi (b : List Nat) (n : Nat) : List Shown :=
  ⟨"op", num b 0 1, false⟩ ::
    if n ≤ 1 then []
    else (if num b 1 1 ≠ 0 then [⟨"reserved", num b 1 1, false⟩] else []) ++
      if n ≤ 2 then []
      else (if num b 2 2 ≠ 0 then [⟨"flags", num b 2 2, false⟩] else []) ++ psiMid b n

/-- `print_ptrace_syscall_info`, src/ptrace_syscall_info.c:329-336: `mem` is what can be read from the address on; `none` is the
address -/
def printInfo (mem : Nat → Option (List Nat)) (user kernel : Nat) : Option (List Shown) :=
  let n := min (min user kernel) 88
  if n = 0 then none
  else
    match mem n with
    | none => none
    | some b => some (psi b n)

end Strace.Psi
