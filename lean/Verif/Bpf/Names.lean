import Verif.Bpf.Props
/-!
# C108: what has a name is shown by name
-/
namespace Strace.Bpf

/-- the actions of linux/seccomp.h by the upper half of the value -/
def actions : List (String × Nat) :=
  [("SECCOMP_RET_KILL_PROCESS", 0x8000), ("SECCOMP_RET_KILL_THREAD", 0), ("SECCOMP_RET_TRAP", 3), ("SECCOMP_RET_ERRNO", 5),
   ("SECCOMP_RET_USER_NOTIF", 0x7fc0), ("SECCOMP_RET_TRACE", 0x7ff0), ("SECCOMP_RET_LOG", 0x7ffc), ("SECCOMP_RET_ALLOW", 0x7fff)]

/-- the extensions of linux/filter.h -/
def extensions : List (String × Nat) :=
  [("SKF_AD_PROTOCOL", 0), ("SKF_AD_PKTTYPE", 4), ("SKF_AD_IFINDEX", 8), ("SKF_AD_NLATTR", 12), ("SKF_AD_NLATTR_NEST", 16),
   ("SKF_AD_MARK", 20), ("SKF_AD_QUEUE", 24), ("SKF_AD_HATYPE", 28), ("SKF_AD_RXHASH", 32), ("SKF_AD_CPU", 36),
   ("SKF_AD_ALU_XOR_X", 40), ("SKF_AD_VLAN_TAG", 44), ("SKF_AD_VLAN_TAG_PRESENT", 48), ("SKF_AD_PAY_OFFSET", 52),
   ("SKF_AD_RANDOM", 56), ("SKF_AD_VLAN_TPID", 60)]

/-- what the fields of classic codes are: the values are those of linux/bpf_common.h -/
def sizes : List (String × Nat) := [("BPF_W", 0x00), ("BPF_H", 0x08), ("BPF_B", 0x10)]
def modes : List (String × Nat) := [("BPF_IMM", 0x00), ("BPF_ABS", 0x20), ("BPF_IND", 0x40), ("BPF_MEM", 0x60), ("BPF_LEN", 0x80), ("BPF_MSH", 0xa0)]
def ops : List (String × Nat) :=
  [("BPF_ADD", 0x00), ("BPF_SUB", 0x10), ("BPF_MUL", 0x20), ("BPF_DIV", 0x30), ("BPF_OR", 0x40), ("BPF_AND", 0x50), ("BPF_LSH", 0x60),
   ("BPF_RSH", 0x70), ("BPF_NEG", 0x80), ("BPF_MOD", 0x90), ("BPF_XOR", 0xa0)]
def jumps : List (String × Nat) := [("BPF_JA", 0x00), ("BPF_JEQ", 0x10), ("BPF_JGT", 0x20), ("BPF_JGE", 0x30), ("BPF_JSET", 0x40)]
def sources : List (String × Nat) := [("BPF_K", 0x00), ("BPF_X", 0x08)]

/-- the codes that the kernel accepts, as they are written in C -/
inductive Written : List Tok → Nat → Prop
  | ld (c s m : String × Nat) (hc : c ∈ [("BPF_LD", 0), ("BPF_LDX", 1)]) (hs : s ∈ sizes) (hm : m ∈ modes) :
      Written [.name c.1, .bar, .name s.1, .bar, .name m.1] (c.2 + s.2 + m.2)
  | st (c : String × Nat) (hc : c ∈ [("BPF_ST", 2), ("BPF_STX", 3)]) : Written [.name c.1] c.2
  | alu (s o : String × Nat) (hs : s ∈ sources) (ho : o ∈ ops) :
      Written [.name "BPF_ALU", .bar, .name s.1, .bar, .name o.1] (4 + s.2 + o.2)
  | jmp (s o : String × Nat) (hs : s ∈ sources) (ho : o ∈ jumps) :
      Written [.name "BPF_JMP", .bar, .name s.1, .bar, .name o.1] (5 + s.2 + o.2)
  | ret (r : String × Nat) (hr : r ∈ [("BPF_K", 0), ("BPF_X", 8), ("BPF_A", 0x10)]) : Written [.name "BPF_RET", .bar, .name r.1] (6 + r.2)
  | misc (r : String × Nat) (hr : r ∈ [("BPF_TAX", 0), ("BPF_TXA", 0x80)]) : Written [.name "BPF_MISC", .bar, .name r.1] (7 + r.2)

/-- every code that can be written is shown as written -/
theorem code_named (l : List Tok) (n : Nat) (h : Written l n) : printCode .named (BitVec.ofNat 16 n) false = l := by
  cases h with
  | ld c s m hc hs hm =>
    have : ∀ c ∈ [("BPF_LD", 0), ("BPF_LDX", 1)], ∀ s ∈ sizes, ∀ m ∈ modes,
        printCode .named (BitVec.ofNat 16 (c.2 + s.2 + m.2)) false = [.name c.1, .bar, .name s.1, .bar, .name m.1] := by decide +kernel
    exact this c hc s hs m hm
  | st c hc =>
    have : ∀ c ∈ [("BPF_ST", 2), ("BPF_STX", 3)], printCode .named (BitVec.ofNat 16 c.2) false = [.name c.1] := by decide +kernel
    exact this c hc
  | alu s o hs ho =>
    have : ∀ s ∈ sources, ∀ o ∈ ops, printCode .named (BitVec.ofNat 16 (4 + s.2 + o.2)) false =
        [.name "BPF_ALU", .bar, .name s.1, .bar, .name o.1] := by decide +kernel
    exact this s hs o ho
  | jmp s o hs ho =>
    have : ∀ s ∈ sources, ∀ o ∈ jumps, printCode .named (BitVec.ofNat 16 (5 + s.2 + o.2)) false =
        [.name "BPF_JMP", .bar, .name s.1, .bar, .name o.1] := by decide +kernel
    exact this s hs o ho
  | ret r hr =>
    have : ∀ r ∈ [("BPF_K", 0), ("BPF_X", 8), ("BPF_A", 0x10)], printCode .named (BitVec.ofNat 16 (6 + r.2)) false =
        [.name "BPF_RET", .bar, .name r.1] := by decide +kernel
    exact this r hr
  | misc r hr =>
    have : ∀ r ∈ [("BPF_TAX", 0), ("BPF_TXA", 0x80)], printCode .named (BitVec.ofNat 16 (7 + r.2)) false =
        [.name "BPF_MISC", .bar, .name r.1] := by decide +kernel
    exact this r hr

theorem mask_low : ∀ i : Fin 32, i.1 < 16 → (0xffff0000#32)[i.1]'i.2 = false := by decide +kernel
theorem mask_high : ∀ i : Fin 32, ¬ i.1 < 16 → (0xffff0000#32)[i.1]'i.2 = true := by decide +kernel
theorem mask_not : ∀ i : Fin 32, (0xffff#32)[i.1]'i.2 = !(0xffff0000#32)[i.1]'i.2 := by decide +kernel

theorem and_upper (k : BitVec 32) : (0xffff0000#32 &&& k).toNat = k.toNat / 65536 * 65536 := by
  have h : (0xffff0000#32 &&& k) = (k >>> 16) <<< 16 := by
    ext i hi
    rw [BitVec.getElem_and, BitVec.getElem_shiftLeft]
    by_cases h16 : i < 16
    · rw [show (0xffff0000#32)[i] = false from mask_low ⟨i, hi⟩ h16]
      simp [h16]
    · rw [show (0xffff0000#32)[i] = true from mask_high ⟨i, hi⟩ h16]
      have e : 16 + (i - 16) = i := by omega
      simp [h16, BitVec.getElem_ushiftRight, e, BitVec.getLsbD_eq_getElem hi]
  rw [h, BitVec.toNat_shiftLeft, BitVec.toNat_ushiftRight, Nat.shiftRight_eq_div_pow, Nat.shiftLeft_eq]
  have := k.isLt
  omega

theorem and_lower (k : BitVec 32) : (k &&& ~~~ (0xffff0000#32 &&& k)).toNat = k.toNat % 65536 := by
  have h : (k &&& ~~~ (0xffff0000#32 &&& k)) = k &&& 0xffff#32 := by
    ext i hi
    rw [BitVec.getElem_and, BitVec.getElem_not, BitVec.getElem_and, BitVec.getElem_and, show (0xffff#32)[i] = !(0xffff0000#32)[i] from mask_not ⟨i, hi⟩]
    cases k[i] <;> cases (0xffff0000#32)[i] <;> rfl
  rw [h, BitVec.toNat_and]
  have : (0xffff#32).toNat = 2 ^ 16 - 1 := rfl
  rw [this, Nat.and_two_pow_sub_one_eq_mod]

/-- what a seccomp program returns is shown as an action and data, and as nothing else -/
theorem action_named (f : Insn) (hc : f.code.toNat % 8 = 6) (e : String × Nat) (he : e ∈ actions) (hk : f.k.toNat / 65536 = e.2) :
    printK .seccomp .named f = some (.name e.1 :: if f.k.toNat % 65536 = 0 then [] else [.bar, .hex (f.k.toNat % 65536)]) := by
  have h6 : cls f.code = 6 := by
    apply BitVec.eq_of_toNat_eq
    rw [cls_mod]
    exact hc
  unfold printK seccompK
  simp only
  rw [if_pos h6, and_upper, hk]
  have hn : ∀ e ∈ actions, printxvals .named [seccompRet] (e.2 * 65536) "SECCOMP_RET_???" = [.name e.1] := by decide +kernel
  rw [hn e he, and_lower]
  by_cases h0 : f.k.toNat % 65536 = 0
  · have : (f.k &&& ~~~ (0xffff0000#32 &&& f.k)) = 0 := by
      apply BitVec.eq_of_toNat_eq
      rw [and_lower, h0]
      rfl
    rw [if_neg (by rw [this]; simp), if_pos h0]
    rfl
  · have : (f.k &&& ~~~ (0xffff0000#32 &&& f.k)) ≠ 0 := by
      intro h
      apply h0
      rw [← and_lower, h]
      rfl
    rw [if_pos this, if_neg h0]
    rfl

/-- no other instruction of a seccomp program is shown with an action -/
theorem no_action (st : Style) (f : Insn) (hc : f.code.toNat % 8 ≠ 6) : printK .seccomp st f = none := by
  have h6 : cls f.code ≠ 6 := by
    intro h
    apply hc
    rw [← cls_mod, h]
    rfl
  unfold printK seccompK
  rw [if_neg h6]

/-- BPF_LD with BPF_ABS at an extension is shown so -/
theorem extension_named (size : String × Nat) (hs : size ∈ sizes) (jt : BitVec 8) (e : String × Nat) (he : e ∈ extensions) :
    printK .sock .named ⟨BitVec.ofNat 16 (0x20 + size.2), jt, 0, BitVec.ofNat 32 (2 ^ 32 - 0x1000 + e.2)⟩ =
      some [.name "SKF_AD_OFF", .plus, .name e.1] := by
  have : ∀ size ∈ sizes, ∀ e ∈ extensions, printK .sock .named ⟨BitVec.ofNat 16 (0x20 + size.2), 0, 0, BitVec.ofNat 32 (2 ^ 32 - 0x1000 + e.2)⟩ =
      some [.name "SKF_AD_OFF", .plus, .name e.1] := by decide +kernel
  exact this size hs e he

example : Written [.name "BPF_LD", .bar, .name "BPF_W", .bar, .name "BPF_ABS"] 0x20 :=
  .ld ("BPF_LD", 0) ("BPF_W", 0) ("BPF_ABS", 0x20) (by decide) (by decide) (by decide)

end Strace.Bpf
