/-
Model of the seccomp filter generators (src/filter_seccomp.c) and of the classic BPF machine that runs
their output.  All quantities are `Nat`; 32-bit registers are kept below 2^32 by the machine.
-/
namespace Strace.Seccomp

/-- `struct sock_filter` of <linux/filter.h> -/
structure Insn where
  code : Nat
  jt : Nat
  jf : Nat
  k : Nat
deriving Repr, DecidableEq

/-! opcodes of <linux/bpf_common.h> as used in src/filter_seccomp.c -/
def LD_ABS : Nat := 0x20   -- BPF_LD | BPF_W | BPF_ABS
def LD_IMM : Nat := 0x00   -- BPF_LD | BPF_IMM
def AND_K : Nat := 0x54    -- BPF_ALU | BPF_AND | BPF_K
def LSH_X : Nat := 0x6c    -- BPF_ALU | BPF_LSH | BPF_X
def RSH_K : Nat := 0x74    -- BPF_ALU | BPF_RSH | BPF_K
def JA : Nat := 0x05       -- BPF_JMP | BPF_JA
def JEQ_K : Nat := 0x15    -- BPF_JMP | BPF_JEQ | BPF_K
def JGE_K : Nat := 0x35    -- BPF_JMP | BPF_JGE | BPF_K
def JSET_K : Nat := 0x45   -- BPF_JMP | BPF_JSET | BPF_K
def RET_K : Nat := 0x06    -- BPF_RET | BPF_K
def TAX : Nat := 0x07      -- BPF_MISC | BPF_TAX
def TXA : Nat := 0x87      -- BPF_MISC | BPF_TXA

/-- `offsetof(struct seccomp_data, nr)` and `offsetof(struct seccomp_data, arch)` -/
def OFF_NR : Nat := 0
def OFF_ARCH : Nat := 4

/-- SECCOMP_RET_TRACE, SECCOMP_RET_ALLOW of <linux/seccomp.h> -/
def TRACE : Nat := 0x7ff00000
def ALLOW : Nat := 0x7fff0000

/-- the part of `struct seccomp_data` the generated programs look at -/
structure Data where
  arch : Nat
  nr : Nat
deriving Repr

/-- The classic BPF machine restricted to the opcodes above.  Not strace code: this is the kernel's
documented behaviour.  Jumps are relative to the next instruction and only go forward, so a state is the
rest of the program.  `none`: control left the program or met an unknown instruction. -/
def run (d : Data) : List Insn → Nat → Nat → Option Nat
  | [], _, _ => none
  | i :: rest, a, x =>
    if i.code = RET_K then some i.k
    else if i.code = LD_ABS then
      if i.k = OFF_NR then run d rest d.nr x
      else if i.k = OFF_ARCH then run d rest d.arch x
      else none
    else if i.code = LD_IMM then run d rest i.k x
    else if i.code = AND_K then run d rest (a &&& i.k) x
    else if i.code = LSH_X then run d rest (a * 2 ^ x % 2 ^ 32) x
    else if i.code = RSH_K then run d rest (a / 2 ^ i.k) x
    else if i.code = TAX then run d rest a a
    else if i.code = TXA then run d rest x x
    else if i.code = JA then run d (rest.drop i.k) a x
    else if i.code = JEQ_K then run d (rest.drop (if a = i.k then i.jt else i.jf)) a x
    else if i.code = JGE_K then run d (rest.drop (if a ≥ i.k then i.jt else i.jf)) a x
    else if i.code = JSET_K then run d (rest.drop (if a &&& i.k ≠ 0 then i.jt else i.jf)) a x
    else none
termination_by p => p.length
decreasing_by all_goals (simp [List.length_drop]; try omega)

/-- `SET_BPF_STMT`, src/filter_seccomp.c:38-39 -/
def stmt (code k : Nat) : Insn := ⟨code, 0, 0, k⟩
/-- `SET_BPF_JUMP`, src/filter_seccomp.c:41-42 -/
def jump (code k jt jf : Nat) : Insn := ⟨code, jt, jf, k⟩

/-- `JMP_PLACEHOLDER_NEXT`, `_TRACE`, `_ALLOW`, src/filter_seccomp.c:31-33 -/
def P_NEXT : Nat := 255
def P_TRACE : Nat := 254
def P_ALLOW : Nat := 253

/-- one personality: `audit_arch_vec[p]`, `nsyscall_vec[p]` and `traced_by_seccomp(·, p)` -/
structure Pers where
  arch : Nat
  flag : Nat
  n : Nat
  traced : Nat → Bool

/-! flags of src/sysent.h:29-44 -/
def MEMORY_MAPPING_CHANGE : Nat := 0o400
def TRACE_INDIRECT_SUBCALL : Nat := 0o2000
def TRACE_SECCOMP_DEFAULT : Nat := 0o4000000
def COMM_CHANGE : Nat := 0o40000000

/-- `traced_by_seccomp`, src/filter_seccomp.c:255-265 -/
def tracedBySeccomp (stackTrace decodeComm : Bool) (sysFlags : Nat → Nat) (inSet : Nat → Bool)
    (scno : Nat) : Bool :=
  decide (sysFlags scno &&& (TRACE_INDIRECT_SUBCALL ||| TRACE_SECCOMP_DEFAULT |||
    (if stackTrace then MEMORY_MAPPING_CHANGE else 0) ||| (if decodeComm then COMM_CHANGE else 0)) ≠ 0)
    || inSet scno

/-- `replace_jmp_placeholders`, src/filter_seccomp.c:267-284 -/
def replaceJ (off next trace allow : Nat) : Nat :=
  if off = P_NEXT then next else if off = P_TRACE then trace else if off = P_ALLOW then allow else off

/-- loop body of src/filter_seccomp.c:412-422 (and 550-560) for the instruction at index `i`; the
offsets are converted to `unsigned char` -/
def fix (pos i : Nat) (ins : Insn) : Insn :=
  if ins.code % 8 ≠ 5 then ins
  else
    let next := (pos - i - 1) % 256
    let trace := (pos - i - 2) % 256
    let allow := (pos - i - 3) % 256
    { code := ins.code
      jt := replaceJ ins.jt next trace allow
      jf := replaceJ ins.jf next trace allow
      k := if ins.code / 16 % 16 = 0 then next else ins.k }

/-- the loop `for (i = start; i < end; ++i)`, src/filter_seccomp.c:411, 549; `i` is the index of the head -/
def patch (pos i : Nat) : List Insn → List Insn
  | [] => []
  | ins :: rest => fix pos i ins :: patch pos (i + 1) rest

/-- `bpf_syscalls_cmp`, src/filter_seccomp.c:286-302 -/
def syscallsCmp (lower upper : Nat) : List Insn :=
  if lower + 1 = upper then [jump JEQ_K lower P_TRACE 0]
  else [jump JGE_K lower 0 1, jump JGE_K upper 0 P_TRACE]

/-- the loop over syscall numbers and the flush after it, src/filter_seccomp.c:365-382;
`lower = none` is `UINT_MAX` -/
def cmpLoop (p : Pers) (i : Nat) (lower : Option Nat) : List Insn :=
  if i < p.n then
    if p.traced i then
      match lower with
      | none => cmpLoop p (i + 1) (some i)
      | some l => cmpLoop p (i + 1) (some l)
    else
      match lower with
      | none => cmpLoop p (i + 1) none
      | some l => syscallsCmp (l ||| p.flag) (i ||| p.flag) ++ cmpLoop p (i + 1) none
  else
    match lower with
    | none => []
    | some l => syscallsCmp (l ||| p.flag) (p.n ||| p.flag)
termination_by p.n - i

/-- src/filter_seccomp.c:345-363: architecture check, load of the number, flag check -/
def linPrelude (multi : Bool) (p : Pers) : List Insn :=
  (if multi then [jump JEQ_K p.arch 0 P_NEXT] else []) ++
  [stmt LD_ABS OFF_NR] ++
  (if multi && decide (p.flag ≠ 0) then
    [jump JGE_K p.flag 2 0, stmt LD_ABS OFF_ARCH, jump JA P_NEXT 0 0] else [])

/-- one round of the personality loop of `linear_filter_generator`, src/filter_seccomp.c:341-424, with
`pos` instructions already written.  The flag is the overflow test of line 407, done before patching;
an overflowing section is returned unpatched, as in the code. -/
def linSection (multi : Bool) (pos : Nat) (p : Pers) : List Insn × Bool :=
  let body := linPrelude multi p ++ cmpLoop p 0 none
  let tail := [jump JGE_K (p.n ||| p.flag) 1 0, stmt RET_K ALLOW, stmt RET_K TRACE]
  if (body ++ tail).length > 255 then (body ++ tail, true)
  else (patch (pos + (body ++ tail).length) pos body ++ tail, false)

/-- `bpf_syscalls_match`, src/filter_seccomp.c:434-460 -/
def syscallsMatch (bits idx : Nat) : List Insn :=
  if bits = 0 then [jump JEQ_K idx P_ALLOW 0]
  else if bits = 2 ^ 32 - 1 then [jump JEQ_K idx P_TRACE 0]
  else [jump JEQ_K idx 0 2, stmt TXA 0, jump JSET_K bits P_TRACE P_ALLOW]

/-- src/filter_seccomp.c:525-526; `1 << 31` is taken to be the unsigned bit pattern -/
def addBit (tr : Bool) (bits i : Nat) : Nat := if tr then bits ||| 2 ^ (i % 32) else bits

/-- the loop over syscall numbers and the flush after it, src/filter_seccomp.c:524-535, with `pos`
instructions already written -/
def matchLoop (p : Pers) (pos i bits : Nat) : List Insn :=
  if i < p.n ∧ pos ≤ 4096 then
    if i % 32 = 31 then
      syscallsMatch (addBit (p.traced i) bits i) (i / 32) ++
        matchLoop p (pos + (syscallsMatch (addBit (p.traced i) bits i) (i / 32)).length) (i + 1) 0
    else matchLoop p pos (i + 1) (addBit (p.traced i) bits i)
  else if i % 32 ≠ 0 then syscallsMatch bits (i / 32) else []
termination_by p.n - i

/-- `~audit_arch_vec[p].flag` -/
def notFlag (p : Pers) : Nat := 2 ^ 32 - 1 - p.flag

/-- src/filter_seccomp.c:485-522 -/
def binPrelude (multi : Bool) (p : Pers) : List Insn :=
  (if multi then [jump JEQ_K p.arch 0 P_NEXT] else []) ++
  [stmt LD_ABS OFF_NR] ++
  (if multi && decide (p.flag ≠ 0) then
    [jump JGE_K p.flag 2 0, stmt LD_ABS OFF_ARCH, jump JA P_NEXT 0 0, stmt AND_K (notFlag p)] else []) ++
  [stmt AND_K 0x1f, stmt TAX 0, stmt LD_IMM 1, stmt LSH_X 0, stmt TAX 0, stmt LD_ABS OFF_NR] ++
  (if p.flag ≠ 0 then [stmt AND_K (notFlag p)] else []) ++
  [stmt RSH_K 5]

/-- one round of the personality loop of `binary_match_filter_generator`, src/filter_seccomp.c:478-562 -/
def binSection (multi : Bool) (pos : Nat) (p : Pers) : List Insn × Bool :=
  let pre := binPrelude multi p
  let body := pre ++ matchLoop p (pos + pre.length) 0 0
  let tail := [stmt RET_K ALLOW, stmt RET_K TRACE]
  if (body ++ tail).length > 255 then (body ++ tail, true)
  else (patch (pos + (body ++ tail).length) pos body ++ tail, false)

/-- the extra loop condition `pos <= BPF_MAXINSNS`, where there is one (src/filter_seccomp.c:478) -/
def within : Option Nat → Nat → Bool
  | none, _ => true
  | some l, pos => decide (pos ≤ l)

/-- the loop over personalities; `acc` is what has been written so far, so `pos = acc.length`.
`limit` is the additional loop condition `pos <= BPF_MAXINSNS` of the second generator
(src/filter_seccomp.c:478).  The flag is `*overflow`. -/
def secLoop (sec : Nat → Pers → List Insn × Bool) (limit : Option Nat) : List Pers → List Insn →
    List Insn × Bool
  | [], acc => (acc, false)
  | p :: ps, acc =>
    if within limit acc.length then
      match sec acc.length p with
      | (s, true) => (acc ++ s, true)
      | (s, false) => secLoop sec limit ps (acc ++ s)
    else (acc, false)

/-- frame of both generators: load of the architecture before, default RET_TRACE after, both only with
more than one personality (src/filter_seccomp.c:327-330, 426-429); the loop runs over the personalities
in reverse order -/
def generate (sec : Bool → Nat → Pers → List Insn × Bool) (limit : Option Nat) (ps : List Pers) :
    List Insn × Bool :=
  let multi := decide (ps.length > 1)
  match secLoop (sec multi) limit ps.reverse (if multi then [stmt LD_ABS OFF_ARCH] else []) with
  | (prog, true) => (prog, true)
  | (prog, false) => (prog ++ (if multi then [stmt RET_K TRACE] else []), false)

/-- `linear_filter_generator`, src/filter_seccomp.c:304-432 -/
def linearGen (ps : List Pers) : List Insn × Bool := generate linSection none ps

/-- `binary_match_filter_generator`, src/filter_seccomp.c:462-569 -/
def binaryGen (ps : List Pers) : List Insn × Bool := generate binSection (some 4096) ps

/-- loop body of src/filter_seccomp.c:581-589; `best` starts as `(USHRT_MAX, NULL)` -/
def better (best : Nat × List Insn) (g : List Insn × Bool) : Nat × List Insn :=
  if g.1.length < best.1 ∧ g.2 = false then (g.1.length, g.1) else best

/-- program selection of `check_seccomp_filter_properties`, src/filter_seccomp.c:581-599; `none`: seccomp
filtering is given up -/
def chooseProg (ps : List Pers) : Option (List Insn) :=
  let best := better (better (65535, []) (linearGen ps)) (binaryGen ps)
  if best.1 = 65535 then none
  else if best.1 > 4096 then none
  else some best.2

end Strace.Seccomp
