import Verif.Sized.Model
/-!
# What the sets are: the kernel's bitmaps
-/
namespace Strace.Sets
open Strace.Sized (Byte)

/-- the byte of an array of words of `w` bytes that holds the bit number `i` -/
def bytePos (be : Bool) (w i : Nat) : Nat :=
  if be = true then i / (8 * w) * w + (w - 1 - i / 8 % w) else i / 8

/-- the number `i` is a member of the set in the `n` bytes at `a` -/
def InSet (mem : Nat → Option Byte) (be : Bool) (w a n i : Nat) : Prop :=
  bytePos be w i < n ∧ ∃ b : Byte, mem ((a + bytePos be w i) % 2 ^ 64) = some b ∧ b.val.testBit (i % 8) = true

/-- all of the `n` bytes at `a` can be read -/
def Readable (mem : Nat → Option Byte) (a n : Nat) : Prop := ∀ i, i < n → (mem ((a + i) % 2 ^ 64)).isSome

/-- the members of a set in ascending order -/
def Lists (is : List Nat) (S : Nat → Prop) : Prop := is.Pairwise (· < ·) ∧ ∀ i, i ∈ is ↔ S i

/-- the bit `i` of a 32-bit integer -/
def bitOf (v i : Nat) : Prop := i < 32 ∧ v / 2 ^ i % 2 = 1

end Strace.Sets
