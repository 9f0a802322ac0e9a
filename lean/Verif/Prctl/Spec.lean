import Verif.Prctl.Model
/-!
# What prctl does with its arguments

From the manual page of prctl and the kernel's interface, not from the decoder: the arguments that the kernel looks at, and as
numbers of how many bits; those that it takes as the address of memory which it reads or writes.
-/
namespace Strace.Prctl.Spec

/-- All four arguments as 64-bit numbers: the ones that are not used have to be zero, or are compared. -/
def all4 : List (Nat × Nat) := [(1, 64), (2, 64), (3, 64), (4, 64)]

/-- The arguments that the kernel looks at as numbers, and how many bits of them, for an option and its arguments. -/
def looksAt (o : Opt) (arg : Nat → Nat) : List (Nat × Nat) :=
  match o with
  | .getKeepcaps => [] | .getTiming => [] | .getSeccomp => [] | .getTimerslack => [] | .perfDisable => []
  | .perfEnable => [] | .getFpemu => [] | .getFpexc => [] | .getEndian => [] | .getChildSubreaper => []
  | .getPdeathsig => [] | .getDumpable => [] | .getUnalign => [] | .getName => [] | .setName => [] | .getTsc => []
  | .getSecurebits => [] | .getTidAddress => [] | .getFpMode => [] | .sveGetVl => [] | .smeGetVl => []
  | .riscvVGetControl => []
  | .setUnalign => [(1, 32)] | .setTsc => [(1, 32)] | .setFpMode => [(1, 32)]
  | .setKeepcaps => [(1, 64)] | .setFpemu => [(1, 64)] | .setFpexc => [(1, 64)] | .setTiming => [(1, 64)]
  | .setEndian => [(1, 64)] | .setChildSubreaper => [(1, 64)] | .setPdeathsig => [(1, 64)] | .setDumpable => [(1, 64)]
  | .setSeccomp => [(1, 64)] | .capbsetRead => [(1, 64)] | .capbsetDrop => [(1, 64)] | .setSecurebits => [(1, 64)]
  | .setTimerslack => [(1, 64)] | .sveSetVl => [(1, 64)] | .smeSetVl => [(1, 64)] | .riscvVSetControl => [(1, 64)]
  | .setPtracer => [(1, 64)]
  | .riscvSetIcacheFlushCtx => [(1, 64), (2, 64)]
  | .setMm => [(1, 32), (2, 64), (3, 64), (4, 64)]
  | .schedCore =>
    if arg 1 % 2 ^ 32 = 0 then [(1, 32), (2, 32), (3, 32)] else [(1, 32), (2, 32), (3, 32), (4, 64)]
  | .setVma => if arg 1 = 0 then [(1, 64), (2, 64), (3, 64)] else all4
  | _ => all4

/-- The argument that is the address of memory that the kernel fills, and how many bytes. -/
def fills (o : Opt) (arg : Nat → Nat) : Option (Nat × Nat) :=
  match o with
  | .getFpemu => some (1, 4) | .getFpexc => some (1, 4) | .getEndian => some (1, 4) | .getChildSubreaper => some (1, 4)
  | .getPdeathsig => some (1, 4) | .getUnalign => some (1, 4) | .getTsc => some (1, 4)
  | .getTidAddress => some (1, 8)
  | .schedCore => if arg 1 % 2 ^ 32 = 0 then some (4, 8) else none
  | _ => none

/-- The number in `n` bytes of memory from address `a` on, the byte `i` counting 256^i. -/
def le (m : Mem) (a : Nat) : Nat → Nat
  | 0 => 0
  | n + 1 => le m a n + 256 ^ n * (m (a + n)).getD 0

/-- `n` bytes at address `a` are readable. -/
def Readable (m : Mem) (a n : Nat) : Prop := ∀ i, i < n → (m (a + i)).isSome = true

/-- The string `s` is at address `a`, its zero byte after it, or it is as long as is looked at. -/
def StringAt (m : Mem) (a n : Nat) (s : List Nat) : Prop :=
  s.length ≤ n ∧ (∀ i, i < s.length → m (a + i) = some (s.getD i 0)) ∧ (∀ b ∈ s, b ≠ 0)
    ∧ (s.length < n → m (a + s.length) = some 0)

/-- Options of which strace shows less of the arguments than the kernel looks at. -/
def hidden : List Opt := [.getSpeculationCtrl, .setSpeculationCtrl, .setMdwe, .setPtracer]

/-- Codes of arch_prctl that fill 8 bytes at the address given: ARCH_GET_FS, ARCH_GET_GS, ARCH_GET_XCOMP_SUPP,
ARCH_GET_XCOMP_PERM, ARCH_GET_XCOMP_GUEST_PERM, ARCH_GET_UNTAG_MASK, ARCH_GET_MAX_TAG_BITS, ARCH_SHSTK_STATUS. -/
def archFills : List Nat := [0x1003, 0x1004, 0x1021, 0x1022, 0x1024, 0x4001, 0x4003, 0x5005]

/-- The last three of them. -/
def archNew : List Nat := [0x4001, 0x4003, 0x5005]

end Strace.Prctl.Spec
