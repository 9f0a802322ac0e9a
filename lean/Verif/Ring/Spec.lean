import Verif.Ring.Model

/-!
# What the kernel is told when a ring is set up, and what it answers
-/
namespace Strace.Ring.Spec

open Strace.Ring

/-- The number of `w` bytes at address `a`. -/
def word (m : Nat → Option Nat) (a w : Nat) : Nat := ((List.range w).map fun k => (m (a + k)).getD 0 * 256 ^ k).sum

/-- The `n` bytes at `p` can be read. -/
def Readable (m : Nat → Option Nat) (p n : Nat) : Prop := p ≠ 0 ∧ ∀ i, i < n → (m (p + i)).isSome

/-- The members in the order of the interface, `wq_fd` being between `features` and the reserved numbers. -/
def members : List Fld :=
  [.sqEntries, .cqEntries, .flags, .sqThreadCpu, .sqThreadIdle, .features, .resv0, .resv1, .resv2,
   .sqHead, .sqTail, .sqRingMask, .sqRingEntries, .sqFlags, .sqDropped, .sqArray, .sqResv1, .sqUserAddr,
   .cqHead, .cqTail, .cqRingMask, .cqRingEntries, .cqOverflow, .cqCqes, .cqFlags, .cqResv1, .cqUserAddr]

/-- The bytes of a member: the two addresses have eight, all others have four. -/
def size (f : Fld) : Nat := if f = .sqUserAddr ∨ f = .cqUserAddr then 8 else 4

/-- Where a member is: after all members before it, of which `wq_fd` (four bytes) is one for those after `features`. -/
def place (f : Fld) : Nat :=
  ((members.takeWhile (· ≠ f)).map size).sum + if Fld.features ∈ members.takeWhile (· ≠ f) then 4 else 0

/-- The value of a member of the structure at `p`. -/
def value (m : Nat → Option Nat) (p : Nat) (f : Fld) : Nat := word m (p + place f) (size f)

/-- `v` is what a number of type `int` is if it has the bits of `a`. -/
def IsInt (a : Nat) (v : Int) : Prop := -2 ^ 31 ≤ v ∧ v < 2 ^ 31 ∧ ∃ q : Int, (a : Int) = v + q * 2 ^ 32

/-- The members that a program gives: the flags, what the thread of the kernel is told, and the reserved numbers unless all of
them are zero. -/
def Given (m : Nat → Option Nat) (p : Nat) (f : Fld) : Prop :=
  f = .flags ∨ f = .sqThreadCpu ∨ f = .sqThreadIdle
  ∨ (f = .resv0 ∨ f = .resv1 ∨ f = .resv2) ∧ ∃ g, (g = .resv0 ∨ g = .resv1 ∨ g = .resv2) ∧ value m p g ≠ 0

/-- The members that the kernel fills: all that are not given, the reserved ones only unless they are zero. -/
def Filled (m : Nat → Option Nat) (p : Nat) (f : Fld) : Prop :=
  f ≠ .flags ∧ f ≠ .sqThreadCpu ∧ f ≠ .sqThreadIdle ∧ f ≠ .resv0 ∧ f ≠ .resv1 ∧ f ≠ .resv2
  ∧ (f = .sqResv1 ∨ f = .cqResv1 → value m p f ≠ 0)

/-- The depth of brackets after a text, from a depth on, if none is closed that is not open. -/
def depth : Nat → List Tok → Option Nat
  | d, [] => some d
  | d, .opened :: l => depth (d + 1) l
  | 0, .closed :: _ => none
  | d + 1, .closed :: l => depth d l
  | d, _ :: l => depth d l

end Strace.Ring.Spec
