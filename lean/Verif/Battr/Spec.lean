import Verif.Battr.Model

/-!
# What is to hold of bpf

The kernel copies `size` bytes of the attributes and takes the rest as zeros. Which bytes it does not look at, and which it
writes, is from the interface (`union bpf_attr` in linux/bpf.h and kernel/bpf/syscall.c), by command number.
-/
namespace Strace.Battr.Spec

open Strace.Battr

/-- The attributes as the kernel has them: the bytes that are given, and zeros. -/
def byte (m : Nat → Option Nat) (a size i : Nat) : Nat := if i < size then (m (a + i)).getD 0 else 0

/-- The number in the `n` bytes at offset `o`. -/
def val (b : Nat → Nat) (o : Nat) (n : Nat) : Nat := ((List.range n).map fun k => b (o + k) * 256 ^ k).sum

/-- All the attributes can be read. -/
def Readable (m : Nat → Option Nat) (a size : Nat) : Prop := ∀ i, i < size → (m (a + i)).isSome

/-- The call is one whose attributes are decoded: a known command and from one byte up to a page of attributes (the
arguments are 32-bit numbers). -/
structure Decoded (c : Call) : Prop where
  cmd : c.cmd < 37
  pos : 0 < c.size
  page : c.size ≤ c.page
  small : c.size < 2 ^ 32

/-- The bytes that the kernel does not look at: padding; the NUMA node where the flag (bit 2 of `map_flags`) does not say that
there is one; what follows the end of a name; what is only written; what the batch commands have no use for. -/
def Ignored (cmd : Nat) (b : Nat → Nat) (i : Nat) : Prop :=
  (cmd ∈ [1, 2, 3, 4, 21] ∧ 4 ≤ i ∧ i < 8)
  ∨ (cmd = 0 ∧ 24 ≤ i ∧ i < 28 ∧ (b 16).testBit 2 = false)
  ∨ (cmd = 0 ∧ i < 44 ∧ ∃ j, 28 ≤ j ∧ j < i ∧ b j = 0)
  ∨ (cmd = 5 ∧ i < 64 ∧ ∃ j, 48 ≤ j ∧ j < i ∧ b j = 0)
  ∨ (cmd = 17 ∧ 12 ≤ i ∧ i < 16)
  ∨ (cmd = 20 ∧ 24 ≤ i ∧ i < 48)
  ∨ (cmd = 26 ∧ i < 16)
  ∨ (cmd = 27 ∧ (i < 16 ∨ 24 ≤ i ∧ i < 32))

/-- The fields that the kernel writes, by offset and length: the next id; the length of the information; the number of
programs and the flags that they are attached with; what is known of a descriptor; the count of a batch; what a run of a
program gave. -/
def writes : Nat → List (Nat × Nat)
  | 10 => [(4, 4), (12, 4), (36, 4), (44, 4)]
  | 11 => [(4, 4)]
  | 12 => [(4, 4)]
  | 15 => [(4, 4)]
  | 16 => [(12, 4), (24, 4)]
  | 20 => [(12, 4), (24, 4), (28, 4), (32, 8), (40, 8)]
  | 23 => [(4, 4)]
  | 24 => [(32, 4)]
  | 25 => [(32, 4)]
  | 26 => [(32, 4)]
  | 27 => [(32, 4)]
  | 31 => [(4, 4)]
  | _ => []

/-- Nobody but the kernel changes the attributes during the call. -/
def Kept (cmd size : Nat) (b b' : Nat → Nat) : Prop :=
  ∀ i, i < size → (∀ w ∈ writes cmd, ¬ (w.1 ≤ i ∧ i < w.1 + w.2)) → b' i = b i

/-- The byte at offset `i` can be told from what is shown: it is in a field, in a name or in the data at the end. -/
def Visible (l : List Tok) (b : Nat → Nat) (i : Nat) : Prop :=
  (∃ o n, o ≤ i ∧ i < o + n ∧ (Tok.field o n (val b o n) ∈ l ∨ Tok.was o n (val b o n) ∈ l))
  ∨ (∃ o s d, o ≤ i ∧ Tok.str o s d ∈ l ∧ s[i - o]? = some (b i))
  ∨ (∃ o s, o ≤ i ∧ Tok.extra o s ∈ l ∧ s[i - o]? = some (b i))

/-- What is not shown although the kernel looks at it: the descriptor of the program to detach; the number of relocations of
a program to load; the program to be replaced, where no flag says so (which the kernel refuses); a cookie that is given in
part; the last byte of a name, if nothing given ends the name. -/
def Lost (cmd size : Nat) (b : Nat → Nat) (i : Nat) : Prop :=
  (cmd = 9 ∧ 4 ≤ i ∧ i < 8)
  ∨ (cmd = 5 ∧ 116 ≤ i ∧ i < 120)
  ∨ (cmd = 29 ∧ 12 ≤ i ∧ i < 16 ∧ (b 8).testBit 2 = false)
  ∨ (cmd = 17 ∧ 16 ≤ i ∧ size < 24)
  ∨ (cmd = 0 ∧ 28 ≤ i ∧ i + 1 = min 44 size)
  ∨ (cmd = 5 ∧ 48 ≤ i ∧ i + 1 = min 64 size)

/-- The kernel's answer in a field is shown: as what the field is when the call ends, or as what it was, if it is still that. -/
def Answered (e x : List Tok) (b b' : Nat → Nat) (o n : Nat) : Prop :=
  Tok.field o n (val b' o n) ∈ x ∨ Tok.changed o n (val b' o n) ∈ x
    ∨ (val b' o n = val b o n ∧ Tok.field o n (val b o n) ∈ e)

/-- The answers that are not shown. -/
def Unanswered (cmd o : Nat) : Prop := cmd = 10 ∨ (cmd = 16 ∧ o = 12)

/-- What is shown is so: `old` is what the attributes were when the call began, and `b` what they are. -/
def Truthful (size : Nat) (old b : Nat → Nat) : Tok → Prop
  | .field o n v => v = val b o n
  | .changed o n v => v = val b o n
  | .was o n v => v = val old o n
  | .str o s dots => (∀ k, k < s.length → s[k]? = some (b (o + k))) ∧ (dots = true ↔ b (o + s.length) ≠ 0)
  | .extra o l => o + l.length = size ∧ ∀ k, k < l.length → l[k]? = some (b (o + k))
  | _ => True

end Strace.Battr.Spec
