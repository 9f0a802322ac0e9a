/-!
# Filter programs: src/bpf_filter.c, src/bpf_seccomp_filter.c, src/bpf_sock_filter.c, src/bpf.c

What is printed is a list of tokens: blanks are left out and a number is a token whose value is the number; how numbers are
spelled is printf's.  The memory of the program can be read; what is shown of arrays that cannot be read is C36.
-/
namespace Strace.Bpf

/-- what is printed -/
inductive Tok where
  | name (s : String)
  | hex (n : Nat)
  | num (n : Int)
  | bar
  | plus
  | comma
  | stmt
  | jump
  | close
  | comment (s : String)
  | lbrack
  | rbrack
  | more
  | lbrace
  | rbrace
  | field (s : String)
  deriving DecidableEq

/-- the styles of constants: src/xlat.h:19-39 -/
inductive Style where
  | raw
  | named
  | verbose
  deriving DecidableEq

/-- the constants of a table: value and name -/
abbrev Table := List (Nat × String)

/-- `xlookup`, src/xlat.c:61-103; that it does not depend on how a table is stored is C13 -/
def lookup (t : Table) (v : Nat) : Option String := (t.find? fun e => e.1 = v).map (·.2)

/-- the first table with a name -/
def hit : List Table → Nat → Option String
  | [], _ => none
  | t :: ts, v => match lookup t v with | some s => some s | none => hit ts v

/-- `printxvals_ex`, src/xlat.c:223-262 -/
def printxvals (st : Style) (ts : List Table) (v : Nat) (dflt : String) : List Tok :=
  match st with
  | .raw => [.hex v]
  | _ =>
    match hit ts v with
    | some s => if st = .verbose then [.hex v, .comment s] else [.name s]
    | none => [.hex v, .comment dflt]

/-- src/xlat/bpf_class.in -/
def bpfClass : Table := [(0, "BPF_LD"), (1, "BPF_LDX"), (2, "BPF_ST"), (3, "BPF_STX"), (4, "BPF_ALU"), (5, "BPF_JMP"), (6, "BPF_RET"),
  (7, "BPF_MISC")]
/-- src/xlat/ebpf_class.in -/
def ebpfClass : Table := [(0, "BPF_LD"), (1, "BPF_LDX"), (2, "BPF_ST"), (3, "BPF_STX"), (4, "BPF_ALU"), (5, "BPF_JMP"), (6, "BPF_JMP32"),
  (7, "BPF_ALU64")]
/-- src/xlat/bpf_size.in -/
def bpfSize : Table := [(0, "BPF_W"), (8, "BPF_H"), (0x10, "BPF_B"), (0x18, "BPF_DW")]
/-- src/xlat/ebpf_size.in -/
def ebpfSize : Table := [(0x18, "BPF_DW")]
/-- src/xlat/bpf_mode.in -/
def bpfMode : Table := [(0, "BPF_IMM"), (0x20, "BPF_ABS"), (0x40, "BPF_IND"), (0x60, "BPF_MEM"), (0x80, "BPF_LEN"), (0xa0, "BPF_MSH"),
  (0xc0, "BPF_XADD")]
/-- src/xlat/ebpf_mode.in -/
def ebpfMode : Table := [(0, "BPF_IMM"), (0x20, "BPF_ABS"), (0x40, "BPF_IND"), (0x60, "BPF_MEM"), (0x80, "BPF_MEMSX"), (0xc0, "BPF_XADD")]
/-- src/xlat/bpf_op_alu.in -/
def bpfOpAlu : Table := [(0, "BPF_ADD"), (0x10, "BPF_SUB"), (0x20, "BPF_MUL"), (0x30, "BPF_DIV"), (0x40, "BPF_OR"), (0x50, "BPF_AND"),
  (0x60, "BPF_LSH"), (0x70, "BPF_RSH"), (0x80, "BPF_NEG"), (0x90, "BPF_MOD"), (0xa0, "BPF_XOR"), (0xb0, "BPF_MOV"), (0xc0, "BPF_ARSH"),
  (0xd0, "BPF_END")]
/-- src/xlat/ebpf_op_alu.in -/
def ebpfOpAlu : Table := [(0xb0, "BPF_MOV"), (0xc0, "BPF_ARSH"), (0xd0, "BPF_END")]
/-- src/xlat/bpf_op_jmp.in -/
def bpfOpJmp : Table := [(0, "BPF_JA"), (0x10, "BPF_JEQ"), (0x20, "BPF_JGT"), (0x30, "BPF_JGE"), (0x40, "BPF_JSET"), (0x50, "BPF_JNE"),
  (0x60, "BPF_JSGT"), (0x70, "BPF_JSGE"), (0x80, "BPF_CALL"), (0x90, "BPF_EXIT"), (0xa0, "BPF_JLT"), (0xb0, "BPF_JLE"), (0xc0, "BPF_JSLT"),
  (0xd0, "BPF_JSLE"), (0xe0, "BPF_JCOND")]
/-- src/xlat/ebpf_op_jmp.in -/
def ebpfOpJmp : Table := [(0x50, "BPF_JNE"), (0x60, "BPF_JSGT"), (0x70, "BPF_JSGE"), (0x80, "BPF_CALL"), (0x90, "BPF_EXIT"),
  (0xa0, "BPF_JLT"), (0xb0, "BPF_JLE"), (0xc0, "BPF_JSLT"), (0xd0, "BPF_JSLE")]
/-- src/xlat/bpf_src.in -/
def bpfSrc : Table := [(0, "BPF_K"), (8, "BPF_X")]
/-- src/xlat/bpf_rval.in -/
def bpfRval : Table := [(0, "BPF_K"), (8, "BPF_X"), (0x10, "BPF_A")]
/-- src/xlat/bpf_miscop.in -/
def bpfMiscop : Table := [(0, "BPF_TAX"), (0x80, "BPF_TXA")]
/-- src/xlat/ebpf_regs.in -/
def ebpfRegs : Table := [(0, "BPF_REG_0"), (1, "BPF_REG_1"), (2, "BPF_REG_2"), (3, "BPF_REG_3"), (4, "BPF_REG_4"), (5, "BPF_REG_5"),
  (6, "BPF_REG_6"), (7, "BPF_REG_7"), (8, "BPF_REG_8"), (9, "BPF_REG_9"), (10, "BPF_REG_10")]
/-- src/xlat/seccomp_ret_action.in, with the values of linux/seccomp.h -/
def seccompRet : Table := [(0x80000000, "SECCOMP_RET_KILL_PROCESS"), (0, "SECCOMP_RET_KILL_THREAD"), (0x30000, "SECCOMP_RET_TRAP"),
  (0x50000, "SECCOMP_RET_ERRNO"), (0x7fc00000, "SECCOMP_RET_USER_NOTIF"), (0x7ff00000, "SECCOMP_RET_TRACE"),
  (0x7ffc0000, "SECCOMP_RET_LOG"), (0x7fff0000, "SECCOMP_RET_ALLOW")]
/-- src/xlat/skf_ad.in -/
def skfAd : Table := [(0, "SKF_AD_PROTOCOL"), (4, "SKF_AD_PKTTYPE"), (8, "SKF_AD_IFINDEX"), (12, "SKF_AD_NLATTR"), (16, "SKF_AD_NLATTR_NEST"),
  (20, "SKF_AD_MARK"), (24, "SKF_AD_QUEUE"), (28, "SKF_AD_HATYPE"), (32, "SKF_AD_RXHASH"), (36, "SKF_AD_CPU"), (40, "SKF_AD_ALU_XOR_X"),
  (44, "SKF_AD_VLAN_TAG"), (48, "SKF_AD_VLAN_TAG_PRESENT"), (52, "SKF_AD_PAY_OFFSET"), (56, "SKF_AD_RANDOM"), (60, "SKF_AD_VLAN_TPID")]

/-- `BPF_CLASS`, linux/bpf_common.h -/
def cls (c : BitVec 16) : BitVec 16 := c &&& 0x07
/-- `BPF_SIZE` -/
def size (c : BitVec 16) : BitVec 16 := c &&& 0x18
/-- `BPF_MODE` -/
def mode (c : BitVec 16) : BitVec 16 := c &&& 0xe0
/-- `BPF_OP` -/
def op (c : BitVec 16) : BitVec 16 := c &&& 0xf0
/-- `BPF_SRC` -/
def src (c : BitVec 16) : BitVec 16 := c &&& 0x08
/-- `BPF_RVAL`, linux/filter.h -/
def rval (c : BitVec 16) : BitVec 16 := c &&& 0x18
/-- `BPF_MISCOP` -/
def miscop (c : BitVec 16) : BitVec 16 := c &&& 0xf8

/-- a rest that has no name: `PRINT_VAL_X` and a comment -/
def rest (i : BitVec 16) : List Tok := if i ≠ 0 then [.bar, .hex i.toNat, .comment "BPF_???"] else []

/-- `print_bpf_filter_code`, src/bpf_filter.c:33-111 -/
def printCode (st : Style) (c : BitVec 16) (ext : Bool) : List Tok :=
  let i := c &&& ~~~ cls c
  let ldst := [.bar] ++ printxvals st (bpfSize :: if ext then [ebpfSize] else []) (size c).toNat "BPF_???" ++ [.bar] ++
    printxvals st [if ext then ebpfMode else bpfMode] (mode c).toNat "BPF_???"
  let alu := [.bar] ++ printxvals st [bpfSrc] (src c).toNat "BPF_???" ++ [.bar] ++
    printxvals st (bpfOpAlu :: if ext then [ebpfOpAlu] else []) (op c).toNat "BPF_???"
  printxvals st [if ext then ebpfClass else bpfClass] (cls c).toNat "BPF_???" ++
  match (cls c).toNat with
  | 2 | 3 => if ext then ldst else rest i
  | 0 | 1 => ldst
  | 7 => if ext then alu else [.bar] ++ printxvals st [bpfMiscop] (miscop c).toNat "BPF_???" ++ rest (i &&& ~~~ miscop c)
  | 4 => alu
  | 5 => [.bar] ++ printxvals st [bpfSrc] (src c).toNat "BPF_???" ++ [.bar] ++
      printxvals st (bpfOpJmp :: if ext then [ebpfOpJmp] else []) (op c).toNat "BPF_???"
  | _ =>
    if ext then rest i
    else [.bar] ++ printxvals st [bpfRval] (rval c).toNat "BPF_???" ++ rest (i &&& ~~~ rval c)

/-- `struct bpf_filter_block`, src/bpf_filter.h:13-18 -/
structure Insn where
  code : BitVec 16
  jt : BitVec 8
  jf : BitVec 8
  k : BitVec 32
  deriving DecidableEq

/-- what a program is for, and so which function prints k: none, `print_seccomp_filter_k` or `print_sock_filter_k` -/
inductive Purpose where
  | none
  | seccomp
  | sock
  deriving DecidableEq

/-- `print_seccomp_filter_k`, src/bpf_seccomp_filter.c:18-37: `none` is false -/
def seccompK (st : Style) (f : Insn) : Option (List Tok) :=
  if cls f.code = 6 then
    let action := 0xffff0000#32 &&& f.k
    let data := f.k &&& ~~~ action
    some (printxvals st [seccompRet] action.toNat "SECCOMP_RET_???" ++ if data ≠ 0 then [.bar, .hex data.toNat] else [])
  else none

/-- `print_xlat32`, src/xlat.h: a constant whose value is known -/
def printXlat (st : Style) (v : Nat) (s : String) : List Tok :=
  match st with
  | .raw => [.hex v]
  | .named => [.name s]
  | .verbose => [.hex v, .comment s]

/-- `print_sock_filter_k`, src/bpf_sock_filter.c:21-45 -/
def sockK (st : Style) (f : Insn) : Option (List Tok) :=
  if cls f.code = 0 ∧ mode f.code = 0x20 then
    if f.k ≥ 0xfffff000#32 then
      some (printXlat st 0xfffff000 "SKF_AD_OFF" ++ [.plus] ++ printxvals st [skfAd] (f.k - 0xfffff000#32).toNat "SKF_AD_???")
    else if f.k ≥ 0xfff00000#32 then
      some (printXlat st 0xfff00000 "SKF_NET_OFF" ++ [.plus, .num (f.k - 0xfff00000#32).toNat])
    else if f.k ≥ 0xffe00000#32 then
      some (printXlat st 0xffe00000 "SKF_LL_OFF" ++ [.plus, .num (f.k - 0xffe00000#32).toNat])
    else none
  else none

/-- `print_k` -/
def printK (p : Purpose) (st : Style) (f : Insn) : Option (List Tok) :=
  match p with
  | .none => none
  | .seccomp => seccompK st f
  | .sock => sockK st f

/-- `print_bpf_filter_stmt`, src/bpf_filter.c:113-126 -/
def printStmt (p : Purpose) (st : Style) (f : Insn) : List Tok :=
  [.stmt] ++ printCode st f.code false ++ [.comma] ++ (printK p st f).getD [.hex f.k.toNat] ++ [.close]

/-- `print_bpf_filter_jump`, src/bpf_filter.c:128-145 -/
def printJump (st : Style) (f : Insn) : List Tok :=
  [.jump] ++ printCode st f.code false ++ [.comma, .hex f.k.toNat, .comma, .hex f.jt.toNat, .comma, .hex f.jf.toNat, .close]

/-- `print_bpf_filter_block`, src/bpf_filter.c:152-170, below the limit -/
def printInsn (p : Purpose) (st : Style) (f : Insn) : List Tok :=
  if f.jt ≠ 0 ∨ f.jf ≠ 0 then printJump st f else printStmt p st f

/-- the elements of an array: `print_array_ex`, src/util.c, with `print_bpf_filter_block` or `print_ebpf_insn`; `left` is what the
limit BPF_MAXINSNS leaves -/
def elems {α : Type} (print : α → List Tok) : Nat → List α → List Tok
  | _, [] => []
  | 0, _ :: _ => [.more]
  | left + 1, [x] => let _ := left; print x
  | left + 1, x :: y :: l => print x ++ [.comma] ++ elems print left (y :: l)

/-- BPF_MAXINSNS, linux/bpf_common.h -/
def maxInsns : Nat := 4096

/-- `print_bpf_fprog`, src/bpf_filter.c:172-185, not abbreviated -/
def printProg (p : Purpose) (st : Style) (l : List Insn) : List Tok :=
  [.lbrack] ++ elems (printInsn p st) maxInsns l ++ [.rbrack]

/-- `struct ebpf_insn`, src/bpf.c:113-119 -/
structure EInsn where
  code : BitVec 8
  dst : BitVec 4
  src : BitVec 4
  off : BitVec 16
  imm : BitVec 32
  deriving DecidableEq

/-- `print_ebpf_insn`, src/bpf.c:125-155, below the limit -/
def printEInsn (st : Style) (e : EInsn) : List Tok :=
  [.lbrace, .field "code"] ++ printCode st (e.code.setWidth 16) true ++
  [.comma, .field "dst_reg"] ++ printxvals st [ebpfRegs] e.dst.toNat "BPF_REG_???" ++
  [.comma, .field "src_reg"] ++ printxvals st [ebpfRegs] e.src.toNat "BPF_REG_???" ++
  [.comma, .field "off", .num e.off.toInt, .comma, .field "imm", .hex e.imm.toNat, .rbrace]

/-- `print_ebpf_prog`, src/bpf.c:157-170, not abbreviated -/
def printEProg (st : Style) (l : List EInsn) : List Tok :=
  [.lbrack] ++ elems (printEInsn st) maxInsns l ++ [.rbrack]

end Strace.Bpf
