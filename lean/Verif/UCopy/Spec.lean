import Verif.UCopy.Model
/-! Specification of memory access, independent of how the code does it. -/
namespace Strace.UCopy

/-- the tracee has the bytes `l` at address `a` -/
def At (mem : Mem) (a : Nat) (l : List Nat) : Prop := ∀ i, i < l.length → mem (a + i) = l[i]?

/-- memory is accessible page by page, and not beyond the address space -/
structure Paged (P : Nat) (mem : Mem) : Prop where
  page : ∀ a, (mem a = none ↔ mem (a - a % P) = none)
  top : ∀ a, 2 ^ 64 ≤ a → mem a = none

/-- no kernel call is made to fail from now on -/
def Willing (s : Sys) : Prop := ∀ k, s.calls ≤ k → s.oracle k = none

/-- sizes: a page is a power of two from 8 bytes to 4 GiB and holds whole words -/
structure Sizes (P W : Nat) : Prop where
  W : W = 4 ∨ W = 8
  P : ∃ p, 3 ≤ p ∧ p ≤ 32 ∧ P = 2 ^ p

/-- a string read of at most `len` bytes at `a` gave count `n` and bytes `l` -/
structure StrOk (mem : Mem) (a len n : Nat) (l : List Nat) : Prop where
  bytes : At mem a l
  size : l.length ≤ len
  /-- count 0: no NUL among the `len` bytes -/
  none : n = 0 → l.length = len ∧ 0 ∉ l
  /-- count n: the first NUL is the n-th byte, within the limit -/
  nul : n ≠ 0 → n ≤ l.length ∧ mem (a + (n - 1)) = some 0 ∧ ∀ i, i < n - 1 → mem (a + i) ≠ some 0

/-- `mem'` is `mem` with the first `n` bytes of `l` stored at `a` and nothing else changed -/
def Wrote (mem mem' : Mem) (a : Nat) (l : List Nat) (n : Nat) : Prop :=
  n ≤ l.length ∧ ∀ x, mem' x = if a ≤ x ∧ x < a + n then l[x - a]? else mem x

end Strace.UCopy
