import Verif.Memc.Model

/-!
# What the calls about memory are asked

From the prototypes of the kernel's calls and the manual pages.
-/
namespace Strace.Memc.Spec

open Strace.Memc

/-- The types of parameters: as wide as a register, `int`, `unsigned int`. -/
inductive Ty | long | int | uint
deriving DecidableEq, Repr

/-- The parameters of the calls that take them in registers, but for the offset of mmap and the new address of mremap. -/
def params : Sys → List (Role × Ty)
  | .brk => [(.addr, .long)]
  | .mmap => [(.addr, .long), (.len, .long), (.prot, .long), (.flags, .long), (.fd, .int)]
  | .mmapPgoff => [(.addr, .long), (.len, .long), (.prot, .long), (.flags, .long), (.fd, .int)]
  | .mmap4koff => [(.addr, .long), (.len, .long), (.prot, .long), (.flags, .long), (.fd, .int)]
  | .munmap => [(.addr, .long), (.len, .long)]
  | .mprotect => [(.addr, .long), (.len, .long), (.prot, .long)]
  | .pkeyMprotect => [(.addr, .long), (.len, .long), (.prot, .long), (.pkey, .int)]
  | .mremap => [(.addr, .long), (.oldLen, .long), (.newLen, .long), (.flags, .long)]
  | .madvise => [(.addr, .long), (.len, .long), (.advice, .uint)]
  | .processMadvise => [(.fd, .int), (.iov, .long), (.count, .long), (.advice, .uint), (.flags, .uint)]
  | .processMrelease => [(.fd, .int), (.flags, .uint)]
  | .mlockall => [(.flags, .uint)]
  | .msync => [(.addr, .long), (.len, .long), (.flags, .uint)]
  | .mlock2 => [(.addr, .long), (.len, .long), (.flags, .uint)]
  | .mincore => [(.addr, .long), (.len, .long)]
  | .remapFilePages => [(.addr, .long), (.len, .long), (.prot, .long), (.pgoff, .long), (.flags, .long)]
  | .mseal => [(.addr, .long), (.len, .long), (.flags, .long)]
  | .oldMmap => []
  | .oldMmapPgoff => []

/-- `v` is what a parameter of type `t` is if the register holds `a`. -/
def Is (t : Ty) (a : Nat) (v : Int) : Prop :=
  match t with
  | .long => v = a
  | .int => -2 ^ 31 ≤ v ∧ v < 2 ^ 31 ∧ ∃ q : Int, (a : Int) = v + q * 2 ^ 32
  | .uint => 0 ≤ v ∧ v < 2 ^ 32 ∧ ∃ q : Int, (a : Int) = v + q * 2 ^ 32

/-- What is shown of the parameters: in their order, each as what it is; what follows is `rest`. -/
def Shown : List (Role × Ty) → (Nat → Nat) → List Tok → List Tok → Prop
  | [], _, rest, l => l = rest
  | (r, t) :: ps, arg, rest, l => ∃ v l', l = .val r v :: l' ∧ Is t (arg 0) v ∧ Shown ps (fun i => arg (i + 1)) rest l'

/-- The number of a word of `w` bytes at address `a`. -/
def word (m : Nat → Option Nat) (a w : Nat) : Nat := ((List.range w).map fun k => (m (a + k)).getD 0 * 256 ^ k).sum

/-- How many bytes one unit of the offset of mmap is, by the kind of mmap. -/
def unit : Sys → Nat → Nat
  | .mmapPgoff, page => page
  | .oldMmapPgoff, page => page
  | .mmap4koff, _ => 4096
  | _, _ => 1

/-- mremap looks at the new address: the call is to move the mapping (MREMAP_MAYMOVE, bit 0), without which the kernel refuses
the other flags, and to a given place (MREMAP_FIXED, bit 1) or leaving the old one (MREMAP_DONTUNMAP, bit 2). -/
def UsesNew (flags : Nat) : Prop := flags.testBit 0 = true ∧ (flags.testBit 1 = true ∨ flags.testBit 2 = true)

/-- How many pages a length covers, the last one maybe in part. -/
def IsPages (len page n : Nat) : Prop := len ≤ n * page ∧ n * page < len + page

end Strace.Memc.Spec
