import Verif.Prctl.Model

/-!
# Model of io_uring_register

What io_uring_register shows, when the call begins and when it ends.

Simplifications: flags and names are the numbers that they are shown from; the arrays of buffers, descriptors, restrictions and
resources, the sets of processors and the structures that hold them are one token each (arrays are modelled in `Arr`); arrays in
structures are shown in full (`-s` is large enough, or `-v` is given); the members of the time of a cancellation are members of
the structure; memory is little-endian.
-/
namespace Strace.Rreg

open Strace.Prctl (Mem umoven number)

/-- A call: arguments, memory when it begins and when it ends, whether it has failed, `-e verbose`, and whether the array of
numbers of workers has been printed to its end (src/util.c:1880-1985, `print_array_ex`) when the call begins. -/
structure Call where
  arg : Nat → Nat
  before : Mem
  after : Mem
  failed : Bool
  verbose : Bool
  whole : Bool

/-- What is printed. -/
inductive Tok
  | num (v : Nat)
  | fd (v : Int)
  /-- the operation, and the flag if it is given -/
  | op (o : Nat) (flag : Bool)
  | addr (a : Nat)
  /-- an array, a set or a structure that holds some -/
  | arr (o a n : Nat)
  /-- the arrow before what has changed -/
  | changed
  | opened | closed
  | fld (name : String) (v : List Int)
  /-- operations of a probe: number, reserved, flags and reserved; whether there are more -/
  | ops (l : List (Nat × Nat × Nat × Nat)) (more : Bool)
deriving DecidableEq, Repr

/-- The phase of a call. -/
inductive Phase | entering | exiting
deriving DecidableEq, Repr

/-- The conversion to `int`. -/
def int (v : Nat) : Int := if v % 2 ^ 32 < 2 ^ 31 then (v % 2 ^ 32 : Nat) else (v % 2 ^ 32 : Nat) - 2 ^ 32

/-- src/util.c:1733-1739, `tfetch_mem64` -/
def fetch (c : Call) (ph : Phase) (a n : Nat) : Option (List Nat) :=
  if a ≠ 0 ∧ c.verbose = true ∧ (ph = .entering ∨ c.failed = false) then
    umoven (match ph with | .entering => c.before | .exiting => c.after) a n
  else none

/-- A member of a structure: where it is, how many bytes each of its `count` numbers has, whether they are signed, and whether it
is shown only if it is not zero. -/
structure Member where
  name : String
  off : Nat
  width : Nat
  count : Nat := 1
  signed : Bool := false
  hidden : Bool := false

/-- One of the numbers of a member. -/
def Member.get (l : List Nat) (e : Member) (i : Nat) : Int :=
  let v := number ((l.drop (e.off + i * e.width)).take e.width)
  if e.signed = true ∧ 256 ^ e.width ≤ 2 * v then (v : Int) - (256 ^ e.width : Nat) else v

/-- The numbers of a member. -/
def Member.all (l : List Nat) (e : Member) : List Int := (List.range e.count).map (e.get l)

/-- A member, in the bytes of a structure. -/
def Member.tok (l : List Nat) (e : Member) : List Tok :=
  if e.hidden = true ∧ e.all l = List.replicate e.count 0 then [] else [.fld e.name (e.all l)]

/-- src/io_uring.c:566-601 (bundled/linux/include/uapi/linux/io_uring.h:819-825) -/
def bufReg : List Member :=
  [{ name := "ring_addr", off := 0, width := 8 }, { name := "ring_entries", off := 8, width := 4 },
   { name := "bgid", off := 12, width := 2 }, { name := "flags", off := 14, width := 2 },
   { name := "resv", off := 16, width := 8, count := 3, hidden := true }]

/-- src/io_uring.c:603-649 (bundled/linux/include/uapi/linux/io_uring.h:922-930) -/
def syncCancel : List Member :=
  [{ name := "addr", off := 0, width := 8 }, { name := "fd", off := 8, width := 4, signed := true },
   { name := "flags", off := 12, width := 4 }, { name := "tv_sec", off := 16, width := 8, signed := true },
   { name := "tv_nsec", off := 24, width := 8, signed := true }, { name := "opcode", off := 32, width := 1 },
   { name := "pad", off := 33, width := 1, count := 7, hidden := true },
   { name := "pad2", off := 40, width := 8, count := 3, hidden := true }]

/-- src/io_uring.c:651-677 (bundled/linux/include/uapi/linux/io_uring.h:936-940) -/
def fileRange : List Member :=
  [{ name := "off", off := 0, width := 4 }, { name := "len", off := 4, width := 4 },
   { name := "resv", off := 8, width := 8, hidden := true }]

/-- src/io_uring.c:696-707 (bundled/linux/include/uapi/linux/io_uring.h:828-832) -/
def bufStatus : List Member :=
  [{ name := "buf_group", off := 0, width := 4 }, { name := "head", off := 4, width := 4 },
   { name := "resv", off := 8, width := 4, count := 8, hidden := true }]

/-- src/io_uring.c:712-748 (bundled/linux/include/uapi/linux/io_uring.h:851-868) -/
def napi : List Member :=
  [{ name := "busy_poll_to", off := 0, width := 4 }, { name := "prefer_busy_poll", off := 4, width := 1 },
   { name := "opcode", off := 5, width := 1 }, { name := "pad", off := 6, width := 1, count := 2, hidden := true },
   { name := "op_param", off := 8, width := 4 }, { name := "resv", off := 12, width := 4, hidden := true }]

/-- src/io_uring.c:786-805 (bundled/linux/include/uapi/linux/io_uring.h:754-757) -/
def clock : List Member :=
  [{ name := "clockid", off := 0, width := 4 }, { name := "__resv", off := 4, width := 4, count := 3, hidden := true }]

/-- src/io_uring.c:819-851 (bundled/linux/include/uapi/linux/io_uring.h:764-771); a descriptor is of type `int` -/
def cloneBuffers : List Member :=
  [{ name := "src_fd", off := 0, width := 4, signed := true }, { name := "flags", off := 4, width := 4 },
   { name := "src_off", off := 8, width := 4 }, { name := "dst_off", off := 12, width := 4 }, { name := "nr", off := 16, width := 4 },
   { name := "pad", off := 20, width := 4, count := 3, hidden := true }]

/-- A structure, given its size and members, or its address. -/
def struct (c : Call) (ph : Phase) (n : Nat) (ms : List Member) : List Tok :=
  match fetch c ph (c.arg 2) n with
  | none => [.addr (c.arg 2)]
  | some l => .opened :: (ms.flatMap (Member.tok l) ++ [.closed])

/-- src/io_uring.c:213-233, `print_io_uring_probe_op`: the operation number `i`, which is at byte `16 + 8 * i` -/
def probeOp (l : List Nat) (i : Nat) : Nat × Nat × Nat × Nat :=
  (number ((l.drop (16 + 8 * i)).take 1), number ((l.drop (17 + 8 * i)).take 1), number ((l.drop (18 + 8 * i)).take 2),
   number ((l.drop (20 + 8 * i)).take 4))

/-- src/io_uring.c:273-281: the reserved members of a probe (bundled/linux/include/uapi/linux/io_uring.h:735-741) -/
def probeReserved : List Member :=
  [{ name := "resv", off := 2, width := 2, hidden := true }, { name := "resv2", off := 4, width := 4, count := 3, hidden := true }]

/-- src/io_uring.c:268-289: the members of a probe -/
def probeBody (ph : Phase) (n : Nat) (l : List Nat) : List Tok :=
  let len := number ((l.drop 1).take 1)
  [.opened, .fld "last_op" [(number (l.take 1) : Int)], .fld "ops_len" [(len : Int)]] ++
  probeReserved.flatMap (Member.tok l) ++
  [.ops ((List.range (if ph = .entering then n else min len n)).map (probeOp l)) (decide (ph = .exiting ∧ n < len)), .closed]

/-- src/io_uring.c:236-292, `print_io_uring_probe`: what is printed, whether that is all, and whether members have been printed;
`printed` is whether they have been when the call began -/
def probe (c : Call) (ph : Phase) (n : Nat) (printed : Bool) : List Tok × Bool × Bool :=
  if ph = .exiting ∧ c.failed = true then (if printed = true then [] else [.addr (c.arg 2)], true, printed)
  else if n > 256 then ([.addr (c.arg 2)], true, printed)
  else
    let arrow := if printed = true then [.changed] else []
    match fetch c ph (c.arg 2) (8 * n + 16) with
    | none => (arrow ++ [.addr (c.arg 2)], true, printed)
    | some l =>
      if ph = .entering ∧ l.all (· == 0) = true then (arrow, false, printed)
      else (arrow ++ probeBody ph n l, false, true)

/-- src/io_uring.c:751-767, `print_ioring_register_napi` -/
def registerNapi (c : Call) (ph : Phase) (n : Nat) : List Tok × Bool :=
  if ph = .exiting ∧ c.failed = true then ([], false)
  else
    let arrow := if ph = .exiting then [.changed] else []
    if n ≠ 1 then (arrow ++ [.addr (c.arg 2)], true)
    else (arrow ++ struct c ph 16 napi, (fetch c ph (c.arg 2) 16).isNone)

/-- src/io_uring.c:679-709 and 769-784: a structure that is shown when the call ends -/
def late (c : Call) (ph : Phase) (n size : Nat) (ms : List Member) : List Tok × Bool :=
  if n ≠ 1 then ([.addr (c.arg 2)], true)
  else if ph = .entering then ([], false)
  else (struct c ph size ms, true)

/-- A structure that is shown when the call begins if the number of arguments is `want`. -/
def early (c : Call) (ph : Phase) (n want size : Nat) (ms : List Member) : List Tok × Bool :=
  if n ≠ want then ([.addr (c.arg 2)], true) else (struct c ph size ms, true)

/-- src/io_uring.c:907-984: the argument, by operation (src/xlat/uring_register_opcodes.in); `printed` is for a probe -/
def argument (c : Call) (ph : Phase) (o n : Nat) (printed : Bool) : List Tok × Bool × Bool :=
  if o = 8 then probe c ph n printed
  else
    let r : List Tok × Bool :=
      if o ∈ [0, 2, 4, 6, 7, 11, 13, 14, 15, 16, 17, 20, 21] then ([.arr o (c.arg 2) n], true)
      else if o = 19 then
        match ph with
        | .entering => if c.whole = true then ([.arr o (c.arg 2) n, .changed], false) else ([.arr o (c.arg 2) n], true)
        | .exiting => ([.arr o (c.arg 2) n], true)
      else if o = 22 ∨ o = 23 then early c ph n 1 40 bufReg
      else if o = 24 then early c ph n 1 64 syncCancel
      else if o = 25 then early c ph n 1 16 fileRange
      else if o = 26 then late c ph n 40 bufStatus
      else if o = 27 then registerNapi c ph n
      else if o = 28 then late c ph n 16 napi
      else if o = 29 then early c ph n 0 16 clock
      else if o = 30 then early c ph n 1 32 cloneBuffers
      else ([.addr (c.arg 2)], true)
    (r.1, r.2, false)

/-- src/io_uring.c:885-890: the operation without the flag, `IORING_REGISTER_USE_REGISTERED_RING` -/
def opcode (c : Call) : Nat := c.arg 1 % 2 ^ 31

/-- src/io_uring.c:888-889: whether the flag is given -/
def flag (c : Call) : Bool := (c.arg 1).testBit 31

/-- src/io_uring.c:887: the number of arguments -/
def count (c : Call) : Nat := c.arg 3 % 2 ^ 32

/-- src/io_uring.c:894-905 -/
def first (c : Call) : List Tok :=
  [if flag c = true then .num (c.arg 0 % 2 ^ 32) else .fd (int (c.arg 0)), .op (opcode c) (flag c)]

/-- src/io_uring.c:882-992, `io_uring_register`; src/syscall.c:835-838: a decoder that has printed everything is not called when the
call ends -/
def run (c : Call) : List Tok :=
  let e := argument c .entering (opcode c) (count c) false
  first c ++ e.1 ++
  (if e.2.1 = true then [.num (count c)]
   else (argument c .exiting (opcode c) (count c) e.2.2).1 ++ [.num (count c)])

end Strace.Rreg
