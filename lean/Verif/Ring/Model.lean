import Verif.Prctl.Model

/-!
# Model of rings and of comparing the resources of processes

What io_uring_setup, io_uring_enter and kcmp show.

Simplifications: flags and names are the numbers that they are shown from; the three reserved numbers of the parameters are
shown in full (`-s` is at least 3, or `-v` is given); memory is little-endian; that descriptors are shown with their paths is
modelled in `Fds`.
-/
namespace Strace.Ring

open Strace.Prctl (Mem umoven number)

/-- A call: arguments, memory when it begins and when it ends, whether it has failed, `-e verbose`, and the bytes of a word of
the program. -/
structure Call where
  arg : Nat → Nat
  before : Mem
  after : Mem
  failed : Bool
  verbose : Bool
  word : Nat

/-- The members of struct io_uring_params, those of its two structures of offsets included. -/
inductive Fld
  | sqEntries | cqEntries | flags | sqThreadCpu | sqThreadIdle | features | resv0 | resv1 | resv2
  | sqHead | sqTail | sqRingMask | sqRingEntries | sqFlags | sqDropped | sqArray | sqResv1 | sqUserAddr
  | cqHead | cqTail | cqRingMask | cqRingEntries | cqOverflow | cqCqes | cqFlags | cqResv1 | cqUserAddr
deriving DecidableEq, Repr

/-- What is printed. -/
inductive Tok
  | num (v : Nat)
  | addr (a : Nat)
  | pid (v : Int)
  /-- a descriptor of the process itself -/
  | fd (v : Int)
  /-- a descriptor of the process with this identifier -/
  | fdOf (pid v : Int)
  /-- a set of signals -/
  | mask (v : Nat)
  | opened | closed
  | fld (f : Fld) (v : Nat)
deriving DecidableEq, Repr

/-- The conversion to `int`. -/
def int (v : Nat) : Int := if v % 2 ^ 32 < 2 ^ 31 then (v % 2 ^ 32 : Nat) else (v % 2 ^ 32 : Nat) - 2 ^ 32

/-- src/util.c:1733-1739, `tfetch_mem64`; `err` is whether the call has ended with an error -/
def fetch (c : Call) (m : Mem) (err : Bool) (a n : Nat) : Option (List Nat) :=
  if a ≠ 0 ∧ c.verbose = true ∧ err = false then umoven m a n else none

/-- A number of four bytes of a structure. -/
def u32 (l : List Nat) (o : Nat) : Nat := number ((l.drop o).take 4)

/-- A number of eight bytes of a structure. -/
def u64 (l : List Nat) (o : Nat) : Nat := number ((l.drop o).take 8)

/-- src/io_uring.c:32-56, `print_io_sqring_offsets` (bundled/linux/include/uapi/linux/io_uring.h:496-506); `sq_off` begins at byte 40 -/
def sqOffsets (l : List Nat) : List Tok :=
  [.opened, .fld .sqHead (u32 l 40), .fld .sqTail (u32 l 44), .fld .sqRingMask (u32 l 48), .fld .sqRingEntries (u32 l 52),
   .fld .sqFlags (u32 l 56), .fld .sqDropped (u32 l 60), .fld .sqArray (u32 l 64)] ++
  (if u32 l 68 ≠ 0 then [.fld .sqResv1 (u32 l 68)] else []) ++ [.fld .sqUserAddr (u64 l 72), .closed]

/-- src/io_uring.c:58-82, `print_io_cqring_offsets` (bundled/linux/include/uapi/linux/io_uring.h:515-525); `cq_off` begins at byte 80 -/
def cqOffsets (l : List Nat) : List Tok :=
  [.opened, .fld .cqHead (u32 l 80), .fld .cqTail (u32 l 84), .fld .cqRingMask (u32 l 88), .fld .cqRingEntries (u32 l 92),
   .fld .cqOverflow (u32 l 96), .fld .cqCqes (u32 l 100), .fld .cqFlags (u32 l 104)] ++
  (if u32 l 108 ≠ 0 then [.fld .cqResv1 (u32 l 108)] else []) ++ [.fld .cqUserAddr (u64 l 112), .closed]

/-- src/io_uring.c:90-115, `io_uring_setup` when the call begins: what is printed, and whether that is all -/
def setupEnter (c : Call) : List Tok × Bool :=
  match fetch c c.before false (c.arg 1) 120 with
  | none => ([.num (c.arg 0 % 2 ^ 32), .addr (c.arg 1)], true)
  | some l =>
    ([.num (c.arg 0 % 2 ^ 32), .opened, .fld .flags (u32 l 8), .fld .sqThreadCpu (u32 l 12), .fld .sqThreadIdle (u32 l 16)] ++
     (if u32 l 8 &&& 32 ≠ 0 then [.fd (int (u32 l 24))] else []) ++
     (if u32 l 28 ≠ 0 ∨ u32 l 32 ≠ 0 ∨ u32 l 36 ≠ 0 then
        [.fld .resv0 (u32 l 28), .fld .resv1 (u32 l 32), .fld .resv2 (u32 l 36)] else []), false)

/-- src/io_uring.c:117-135, `io_uring_setup` when the call ends -/
def setupExit (c : Call) : List Tok :=
  (match fetch c c.after c.failed (c.arg 1) 120 with
   | none => []
   | some l => [.fld .sqEntries (u32 l 0), .fld .cqEntries (u32 l 4), .fld .features (u32 l 20)] ++ sqOffsets l ++ cqOffsets l) ++
  [.closed]

/-- src/io_uring.c:84-138; src/syscall.c:835-838: a decoder that has printed everything is not called when the call ends -/
def setup (c : Call) : List Tok :=
  (setupEnter c).1 ++ (if (setupEnter c).2 then [] else setupExit c)

/-- src/signal.c:248-271, `print_sigset_addr_len`; NSIG_BYTES is 8 -/
def sigset (c : Call) (a n : Nat) : Tok :=
  if n < c.word ∨ n > 8 then .addr a
  else
    match fetch c c.before false a n with
    | some l => .mask (number l)
    | none => .addr a

/-- src/io_uring.c:140-173, `io_uring_enter` -/
def enter (c : Call) : List Tok :=
  [.fd (int (c.arg 0)), .num (c.arg 1 % 2 ^ 32), .num (c.arg 2 % 2 ^ 32), .num (c.arg 3 % 2 ^ 32), sigset c (c.arg 4) (c.arg 5),
   .num (c.arg 5)]

/-- src/kcmp.c:38-88: what is printed after the type, whose numbers are those of src/xlat/kcmp_types.in -/
def kcmpRest (c : Call) : List Tok :=
  if int (c.arg 2) = 0 then [.fdOf (int (c.arg 0)) (int (c.arg 3)), .fdOf (int (c.arg 1)) (int (c.arg 4))]
  else if int (c.arg 2) = 7 then
    .fdOf (int (c.arg 0)) (int (c.arg 3)) ::
    match fetch c c.before false (c.arg 4) 12 with
    | none => [.addr (c.arg 4)]
    | some l =>
      [.opened, .fdOf (int (c.arg 1)) (int (u32 l 0)), .fdOf (int (c.arg 1)) (int (u32 l 4)), .num (u32 l 8), .closed]
  else if int (c.arg 2) ∈ [1, 2, 3, 4, 5, 6] then []
  else [.num (c.arg 3), .num (c.arg 4)]

/-- src/kcmp.c:19-90, `kcmp` -/
def kcmp (c : Call) : List Tok :=
  [.pid (int (c.arg 0)), .pid (int (c.arg 1)), .num (c.arg 2 % 2 ^ 32)] ++ kcmpRest c

end Strace.Ring
