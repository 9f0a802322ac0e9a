import Verif.Prctl.Model

/-!
# Model of the calls about memory

What brk, the kinds of mmap, munmap (also mlock and munlock), mprotect, mremap, madvise, msync, mlock2, mlockall, mincore,
remap_file_pages, mseal, process_madvise and process_mrelease show of their arguments.

Simplifications: flags and names are the numbers that they are shown from (the forms are modelled in `Xlat`, those of the flags
of mmap in `Pack`); of the vector of process_madvise the address and the length are kept (what is shown of it is modelled in
`Msg`).
-/
namespace Strace.Memc

open Strace.Prctl (Mem umoven number)

/-- A call: the six arguments, which are 64-bit numbers; memory when it ends (for the calls with an indirect argument, which
are decoded when they begin, memory then); whether it has failed (or `-e verbose` leaves it out, which has the same effect); the
length of words of the program (8 or 4), of pages, and
the limit of arrays (`max_strlen`, if arrays are abbreviated). -/
structure Call where
  arg : Nat → Nat
  mem : Mem
  failed : Bool
  word : Nat
  page : Nat
  limit : Option Nat

/-- The decoders. -/
inductive Sys
  | brk | oldMmap | oldMmapPgoff | mmap | mmapPgoff | mmap4koff | munmap | mprotect | pkeyMprotect | mremap | madvise
  | processMadvise | processMrelease | mlockall | msync | mlock2 | mincore | remapFilePages | mseal
deriving DecidableEq, Repr

/-- What an argument is. -/
inductive Role
  | addr | len | prot | flags | fd | offset | pkey | oldLen | newLen | newAddr | advice | iov | count | pgoff | where_
deriving DecidableEq, Repr

/-- What is shown: an argument, or the vector that mincore fills. -/
inductive Tok
  | val (r : Role) (v : Int)
  /-- NULL in place of the vector -/
  | null
  | begin_
  /-- one page -/
  | bit (v : Nat)
  | more
  /-- the address in place of what cannot be read -/
  | bad (a : Nat)
  | end_
deriving DecidableEq, Repr

/-- The conversion to `int`. -/
def int (v : Nat) : Int := if v % 2 ^ 32 < 2 ^ 31 then (v % 2 ^ 32 : Nat) else (v % 2 ^ 32 : Nat) - 2 ^ 32

/-- src/mem.c:104-134, `print_mmap`: the arguments `u`, and the offset, which is an unsigned 64-bit number -/
def printMmap (u : Nat → Nat) (offset : Nat) : List Tok :=
  [.val .addr (u 0), .val .len (u 1), .val .prot (u 2), .val .flags (u 3), .val .fd (int (u 4)),
   .val .offset (offset % 2 ^ 64 : Nat)]

/-- src/fetch_indirect_syscall_args.c:15-36: `n` words of the program -/
def indirect (c : Call) (a n : Nat) : Option (Nat → Nat) :=
  if c.word = 8 then
    (umoven c.mem a (8 * n)).map fun l i => number ((l.drop (8 * i)).take 8)
  else
    (umoven c.mem a (4 * n)).map fun l i => number ((l.drop (4 * i)).take 4)

/-- src/util.c:1881-1991, `print_array_ex`, for bytes: the pages from `i` on, `k` of them. `cur` is never 0 here. -/
def pages (c : Call) (lim : Option Nat) (a i : Nat) : Nat → List Tok
  | 0 => [.end_]
  | k + 1 =>
    match (if c.failed then none else c.mem (a + i)) with
    | none => if i = 0 then [.bad a] else [.more, .bad (a + i), .end_]
    | some b =>
      (if i = 0 then [.begin_] else []) ++
        if lim.any (fun l => decide (l ≤ i)) then [.more, .end_]
        else .bit (b % 2) :: pages c lim a (i + 1) k

/-- src/util.c:2082-2086, `sequence_truncation_needed`, whose argument is an `unsigned int`: the limit, if it is needed -/
def truncation (c : Call) (n : Nat) : Option Nat := c.limit.filter fun l => decide (l < n % 2 ^ 32)

/-- src/util.c:1893-1914: no address, no elements, and an array that goes beyond the end of memory -/
def vector (c : Call) (a n : Nat) : List Tok :=
  if a = 0 then [.null]
  else if n = 0 then [.begin_, .end_]
  else if 2 ^ 64 ≤ a + n then [.bad a]
  else pages c (truncation c n) a 0 n

/-- src/mem.c:38-43 and 146-509 -/
def run (s : Sys) (c : Call) : List Tok :=
  match s with
  | .brk => [.val .addr (c.arg 0)]
  | .oldMmap =>
    match indirect c (c.arg 0) 6 with
    | some u => printMmap u (u 5)
    | none => [.val .where_ (c.arg 0)]
  | .oldMmapPgoff =>
    match indirect c (c.arg 0) 6 with
    | some u => printMmap u (u 5 * c.page)
    | none => [.val .where_ (c.arg 0)]
  | .mmap => printMmap c.arg (c.arg 5)
  | .mmapPgoff => printMmap c.arg (c.arg 5 * c.page)
  | .mmap4koff => printMmap c.arg (c.arg 5 <<< 12)
  | .munmap => [.val .addr (c.arg 0), .val .len (c.arg 1)]
  | .mprotect => [.val .addr (c.arg 0), .val .len (c.arg 1), .val .prot (c.arg 2)]
  | .pkeyMprotect => [.val .addr (c.arg 0), .val .len (c.arg 1), .val .prot (c.arg 2), .val .pkey (int (c.arg 3))]
  | .mremap =>
    [.val .addr (c.arg 0), .val .oldLen (c.arg 1), .val .newLen (c.arg 2), .val .flags (c.arg 3)] ++
      if c.arg 3 &&& (2 ||| 4) ≠ 0 ∧ c.arg 3 &&& 1 ≠ 0 then [.val .newAddr (c.arg 4)] else []
  | .madvise => [.val .addr (c.arg 0), .val .len (c.arg 1), .val .advice (c.arg 2 % 2 ^ 32 : Nat)]
  | .processMadvise =>
    [.val .fd (int (c.arg 0)), .val .iov (c.arg 1), .val .count (c.arg 2), .val .advice (c.arg 3 % 2 ^ 32 : Nat),
     .val .flags (c.arg 4 % 2 ^ 32 : Nat)]
  | .processMrelease => [.val .fd (int (c.arg 0)), .val .flags (c.arg 1 % 2 ^ 32 : Nat)]
  | .mlockall => [.val .flags (c.arg 0 % 2 ^ 32 : Nat)]
  | .msync => [.val .addr (c.arg 0), .val .len (c.arg 1), .val .flags (c.arg 2 % 2 ^ 32 : Nat)]
  | .mlock2 => [.val .addr (c.arg 0), .val .len (c.arg 1), .val .flags (c.arg 2 % 2 ^ 32 : Nat)]
  | .mincore =>
    [.val .addr (c.arg 0), .val .len (c.arg 1)] ++
      vector c (c.arg 2) (c.arg 1 / c.page + if c.arg 1 &&& (c.page - 1) ≠ 0 then 1 else 0)
  | .remapFilePages =>
    [.val .addr (c.arg 0), .val .len (c.arg 1), .val .prot (c.arg 2), .val .pgoff (c.arg 3), .val .flags (c.arg 4)]
  | .mseal => [.val .addr (c.arg 0), .val .len (c.arg 1), .val .flags (c.arg 2)]

end Strace.Memc
