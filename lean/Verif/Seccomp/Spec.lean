import Verif.Seccomp.Model
/- What the generated programs must do, and the rules a program must meet to be accepted by the kernel. -/
namespace Strace.Seccomp

/-- the personality a system call belongs to: the highest-numbered one with that architecture whose flag
the number reaches (on x86 the x32 personality has the architecture of the first one and a flag) -/
def Governs (ps : List Pers) (d : Data) (p : Pers) : Prop :=
  ∃ low high, ps = low ++ p :: high ∧ d.arch = p.arch ∧ p.flag ≤ d.nr ∧
    ∀ q ∈ high, ¬ (d.arch = q.arch ∧ q.flag ≤ d.nr)

/-- no personality claims the call -/
def Foreign (ps : List Pers) (d : Data) : Prop :=
  ∀ q ∈ ps, ¬ (d.arch = q.arch ∧ q.flag ≤ d.nr)

/-- sane tables: the flag is one bit above all numbers (at least bit 5), values fit 32 bits -/
structure Sane (p : Pers) : Prop where
  arch : p.arch < 2 ^ 32
  n : p.n < 2 ^ 31
  flag : p.flag = 0 ∨ ∃ b, 5 ≤ b ∧ b < 32 ∧ p.flag = 2 ^ b ∧ p.n < 2 ^ b

/-- an instruction with `after` instructions behind it: known opcode, jump targets inside the program -/
def InsnOk (ins : Insn) (after : Nat) : Prop :=
  (ins.code = RET_K) ∨
  (ins.code ∈ [LD_IMM, AND_K, LSH_X, TAX, TXA] ∧ 0 < after) ∨
  (ins.code = RSH_K ∧ ins.k < 32 ∧ 0 < after) ∨
  (ins.code = LD_ABS ∧ (ins.k = OFF_NR ∨ ins.k = OFF_ARCH) ∧ 0 < after) ∨
  (ins.code = JA ∧ ins.k < after) ∨
  (ins.code ∈ [JEQ_K, JGE_K, JSET_K] ∧ ins.jt < after ∧ ins.jf < after ∧ ins.jt < 256 ∧ ins.jf < 256)

/-- the checks of the kernel (bpf_check_classic): 1 to 4096 instructions, each one good where it stands,
the last one a return -/
def KernelOk (prog : List Insn) : Prop :=
  0 < prog.length ∧ prog.length ≤ 4096 ∧
  (∀ (i : Nat) ins, prog[i]? = some ins → InsnOk ins (prog.length - i - 1)) ∧
  ∃ ins, prog.getLast? = some ins ∧ ins.code = RET_K

end Strace.Seccomp
