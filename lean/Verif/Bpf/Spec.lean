import Verif.Bpf.Model
/-!
# C108: a filter program shown can be assembled back

What is shown is read as C: constants have the values of the kernel's headers, `|` and `+` are C's, comments are skipped,
`BPF_STMT(code, k)` is `{ code, 0, 0, k }` and `BPF_JUMP(code, k, jt, jf)` is `{ code, jt, jf, k }`.
-/
namespace Strace.Bpf

/-- the constants of linux/bpf_common.h, linux/bpf.h, linux/filter.h and linux/seccomp.h -/
def headers : List (String × Nat) :=
  [("BPF_LD", 0x00), ("BPF_LDX", 0x01), ("BPF_ST", 0x02), ("BPF_STX", 0x03), ("BPF_ALU", 0x04), ("BPF_JMP", 0x05), ("BPF_RET", 0x06),
   ("BPF_MISC", 0x07), ("BPF_JMP32", 0x06), ("BPF_ALU64", 0x07),
   ("BPF_W", 0x00), ("BPF_H", 0x08), ("BPF_B", 0x10), ("BPF_DW", 0x18),
   ("BPF_IMM", 0x00), ("BPF_ABS", 0x20), ("BPF_IND", 0x40), ("BPF_MEM", 0x60), ("BPF_LEN", 0x80), ("BPF_MSH", 0xa0), ("BPF_MEMSX", 0x80),
   ("BPF_XADD", 0xc0),
   ("BPF_ADD", 0x00), ("BPF_SUB", 0x10), ("BPF_MUL", 0x20), ("BPF_DIV", 0x30), ("BPF_OR", 0x40), ("BPF_AND", 0x50), ("BPF_LSH", 0x60),
   ("BPF_RSH", 0x70), ("BPF_NEG", 0x80), ("BPF_MOD", 0x90), ("BPF_XOR", 0xa0), ("BPF_MOV", 0xb0), ("BPF_ARSH", 0xc0), ("BPF_END", 0xd0),
   ("BPF_JA", 0x00), ("BPF_JEQ", 0x10), ("BPF_JGT", 0x20), ("BPF_JGE", 0x30), ("BPF_JSET", 0x40), ("BPF_JNE", 0x50), ("BPF_JSGT", 0x60),
   ("BPF_JSGE", 0x70), ("BPF_CALL", 0x80), ("BPF_EXIT", 0x90), ("BPF_JLT", 0xa0), ("BPF_JLE", 0xb0), ("BPF_JSLT", 0xc0),
   ("BPF_JSLE", 0xd0), ("BPF_JCOND", 0xe0),
   ("BPF_K", 0x00), ("BPF_X", 0x08), ("BPF_A", 0x10), ("BPF_TAX", 0x00), ("BPF_TXA", 0x80),
   ("BPF_REG_0", 0), ("BPF_REG_1", 1), ("BPF_REG_2", 2), ("BPF_REG_3", 3), ("BPF_REG_4", 4), ("BPF_REG_5", 5), ("BPF_REG_6", 6),
   ("BPF_REG_7", 7), ("BPF_REG_8", 8), ("BPF_REG_9", 9), ("BPF_REG_10", 10),
   ("SECCOMP_RET_KILL_PROCESS", 0x80000000), ("SECCOMP_RET_KILL_THREAD", 0), ("SECCOMP_RET_TRAP", 0x00030000),
   ("SECCOMP_RET_ERRNO", 0x00050000), ("SECCOMP_RET_USER_NOTIF", 0x7fc00000), ("SECCOMP_RET_TRACE", 0x7ff00000),
   ("SECCOMP_RET_LOG", 0x7ffc0000), ("SECCOMP_RET_ALLOW", 0x7fff0000),
   ("SKF_AD_OFF", 2 ^ 32 - 0x1000), ("SKF_NET_OFF", 2 ^ 32 - 0x100000), ("SKF_LL_OFF", 2 ^ 32 - 0x200000),
   ("SKF_AD_PROTOCOL", 0), ("SKF_AD_PKTTYPE", 4), ("SKF_AD_IFINDEX", 8), ("SKF_AD_NLATTR", 12), ("SKF_AD_NLATTR_NEST", 16),
   ("SKF_AD_MARK", 20), ("SKF_AD_QUEUE", 24), ("SKF_AD_HATYPE", 28), ("SKF_AD_RXHASH", 32), ("SKF_AD_CPU", 36),
   ("SKF_AD_ALU_XOR_X", 40), ("SKF_AD_VLAN_TAG", 44), ("SKF_AD_VLAN_TAG_PRESENT", 48), ("SKF_AD_PAY_OFFSET", 52),
   ("SKF_AD_RANDOM", 56), ("SKF_AD_VLAN_TPID", 60)]

/-- a constant or a number -/
def term : Tok → Option Int
  | .name s => (headers.find? fun e => e.1 = s).map fun e => (e.2 : Int)
  | .hex n => some n
  | .num n => some n
  | _ => none

def isComment : Tok → Bool
  | .comment _ => true
  | _ => false

/-- an expression without comments -/
def expr : List Tok → Option Int
  | [t] => term t
  | t :: .bar :: r => do
    let a ← term t
    let b ← expr r
    some (a.toNat ||| b.toNat : Nat)
  | t :: .plus :: r => do
    let a ← term t
    let b ← expr r
    some (a + b)
  | _ => none

/-- the value of an expression -/
def value (l : List Tok) : Option Int := expr (l.filter fun t => !isComment t)

/-- the parts between commas -/
def parts : List Tok → List (List Tok)
  | [] => [[]]
  | .comma :: r => [] :: parts r
  | t :: r =>
    match parts r with
    | [] => [[t]]
    | p :: ps => (t :: p) :: ps

/-- what was read up to the end of each element: a closing parenthesis or brace -/
def chunks : List Tok → List Tok → List (List Tok)
  | _, [] => []
  | cur, .close :: r => cur :: chunks [] r
  | cur, .rbrace :: r => cur :: chunks [] r
  | cur, t :: r => chunks (cur ++ [t]) r

/-- `BPF_STMT` or `BPF_JUMP` -/
def readInsn : List Tok → Option Insn
  | .lbrack :: r => readInsn r
  | .comma :: r => readInsn r
  | .stmt :: r =>
    match (parts r).map value with
    | [some c, some k] => some ⟨BitVec.ofInt 16 c, 0, 0, BitVec.ofInt 32 k⟩
    | _ => none
  | .jump :: r =>
    match (parts r).map value with
    | [some c, some k, some t, some f] => some ⟨BitVec.ofInt 16 c, BitVec.ofInt 8 t, BitVec.ofInt 8 f, BitVec.ofInt 32 k⟩
    | _ => none
  | _ => none

/-- a member of a structure -/
def member (s : String) : List Tok → Option Int
  | .field f :: r => if f = s then value r else none
  | _ => none

/-- a structure -/
def readEInsn : List Tok → Option EInsn
  | .lbrack :: r => readEInsn r
  | .comma :: r => readEInsn r
  | .lbrace :: r =>
    match parts r with
    | [c, d, s, o, i] => do
      let c ← member "code" c
      let d ← member "dst_reg" d
      let s ← member "src_reg" s
      let o ← member "off" o
      let i ← member "imm" i
      some ⟨BitVec.ofInt 8 c, BitVec.ofInt 4 d, BitVec.ofInt 4 s, BitVec.ofInt 16 o, BitVec.ofInt 32 i⟩
    | _ => none
  | _ => none

/-- a program, `none` if it is not whole -/
def readProg (l : List Tok) : Option (List Insn) := if Tok.more ∈ l then none else (chunks [] l).mapM readInsn
def readEProg (l : List Tok) : Option (List EInsn) := if Tok.more ∈ l then none else (chunks [] l).mapM readEInsn

/-- the code of an instruction has no bits beyond those that its class uses, as in all programs that the kernel accepts, or its
class is one of BPF_ST, BPF_STX, BPF_RET and BPF_MISC -/
def Insn.Ok (f : Insn) : Prop := f.code.toNat < 256 ∨ f.code.toNat % 8 ∈ [2, 3, 6, 7]

end Strace.Bpf
