import Verif.Prctl.Model

/-!
# Model of the calls of asynchronous input and output

io_setup, io_destroy, io_submit with its requests, io_cancel, io_getevents and io_pgetevents.

Simplifications: strace is a 64-bit program on a little-endian machine, and the fields `aio_flags`, `aio_resfd` and
`aio_rw_flags` exist (the macros HAVE_STRUCT_IOCB_…); flags, names and priorities are the numbers that they are shown from;
of a buffer whose bytes are shown, of a vector, of a time and of a set of signals, the address (and the length) is kept: what is
shown of them is modelled in other areas.
-/
namespace Strace.Aio

open Strace.Prctl (Mem umoven number)

/-- A call: its arguments, memory when it begins and when it ends, whether it has failed, its result as a 64-bit number (which
is 2^64 - 1 after failure), `-e verbose`, the length of words of the program, and the limit of arrays, if any. -/
structure Call where
  arg : Nat → Nat
  before : Mem
  after : Mem
  failed : Bool
  rval : Nat
  verbose : Bool
  word : Nat
  limit : Option Nat

/-- What is shown by a number: the fields of a request and of an event, and the arguments. -/
inductive Fld
  | data | key | rwFlags | opcode | reqprio | fildes | buf | nbytes | offset | flags | resfd
  | evData | evObj | evRes | evRes2
  | ctx | nr | minNr | nrEvents
deriving DecidableEq, Repr

/-- What is printed. -/
inductive Tok
  | fld (f : Fld) (v : Int)
  /-- the buffer of a request: the `n` bytes at `a` as a string -/
  | content (a n : Nat)
  /-- the buffers of a request: the vector of `n` at `a`, with their bytes or their addresses -/
  | iov (a n : Nat) (bytes : Bool)
  /-- `{` and `}` -/
  | opened | closed
  /-- `[`, `]` and `...` -/
  | first | last | more
  /-- an address, NULL if it is 0 -/
  | addr (a : Nat)
  /-- what the address of the new context is: the number in memory -/
  | pointed (v : Nat)
  /-- the time and the set of signals at an address, read although the call may have failed -/
  | timeout (a : Nat) | sigset (a : Nat)
deriving DecidableEq, Repr

/-- The conversions to `int`, `short` and `long long`: to `w` bits with a sign. -/
def signed (w v : Nat) : Int := if v % 2 ^ w < 2 ^ (w - 1) then (v % 2 ^ w : Nat) else (v % 2 ^ w : Nat) - (2 ^ w : Nat)

/-- `struct iocb` of linux/aio_abi.h, src/aio.c:13 -/
structure Iocb where
  data : Nat
  key : Nat
  rwFlags : Nat
  opcode : Nat
  reqprio : Nat
  fildes : Nat
  buf : Nat
  nbytes : Nat
  offset : Nat
  flags : Nat
  resfd : Nat

/-- The fields of the 64 bytes of a request; those of src/aio.c:13, linux/aio_abi.h. -/
def iocbOf (l : List Nat) : Iocb :=
  let f o w := number ((l.drop o).take w)
  ⟨f 0 8, f 8 4, f 12 4, f 16 2, f 18 2, f 20 4, f 24 8, f 32 8, f 40 8, f 56 4, f 60 4⟩

/-- src/aio.c:43-45 -/
inductive Sub | none | common | vector | poll
deriving DecidableEq, Repr

/-- src/aio.c:48-65, `tprint_lio_opcode` -/
def sub (op : Nat) : Sub :=
  match op with
  | 0 => .common
  | 1 => .common
  | 2 => .none
  | 3 => .none
  | 4 => .none
  | 5 => .poll
  | 6 => .none
  | 7 => .vector
  | 8 => .vector
  | _ => .none

/-- src/aio.c:68-86, `print_common_flags` -/
def commonFlags (cb : Iocb) : List Tok :=
  (if cb.flags ≠ 0 then [.fld .flags cb.flags] else []) ++
  if cb.flags &&& 1 ≠ 0 then [.fld .resfd (signed 32 cb.resfd)]
  else if cb.resfd ≠ 0 then [.fld .resfd cb.resfd] else []

/-- src/aio.c:89-94, `iocb_is_valid`; the first two of its conditions always hold in a 64-bit program -/
def valid (cb : Iocb) : Bool := decide (cb.nbytes < 2 ^ 63)

/-- src/aio.c:97-132, `print_iocb_header` -/
def header (cb : Iocb) : List Tok :=
  [.fld .data cb.data] ++
  (if cb.key ≠ 0 then [.fld .key cb.key] else []) ++
  (if cb.rwFlags ≠ 0 then [.fld .rwFlags cb.rwFlags] else []) ++
  [.fld .opcode cb.opcode] ++
  (if cb.flags &&& 2 ≠ 0 then [.fld .reqprio cb.reqprio]
   else if cb.reqprio ≠ 0 then [.fld .reqprio (signed 16 cb.reqprio)] else []) ++
  [.fld .fildes (signed 32 cb.fildes)]

/-- src/aio.c:142-182, the fields by the operation -/
def body (cb : Iocb) : List Tok :=
  match sub cb.opcode with
  | .common =>
    [if cb.opcode = 1 ∧ valid cb = true then .content cb.buf cb.nbytes else .fld .buf cb.buf,
     .fld .nbytes cb.nbytes, .fld .offset (signed 64 cb.offset)] ++ commonFlags cb
  | .vector =>
    (if valid cb = true then [.iov cb.buf cb.nbytes (decide (cb.opcode = 8))]
     else [.fld .buf cb.buf, .fld .nbytes cb.nbytes]) ++ [.fld .offset (signed 64 cb.offset)] ++ commonFlags cb
  | .poll => [.fld .buf cb.buf] ++ commonFlags cb
  | .none => []

/-- src/aio.c:135-185, `print_iocb` -/
def printIocb (cb : Iocb) : List Tok := .opened :: (header cb ++ body cb) ++ [.closed]

/-- src/util.c:1733-1739, `tfetch_mem64`; `err` is whether the call has ended with an error -/
def fetch (c : Call) (m : Mem) (err : Bool) (a n : Nat) : Option (List Nat) :=
  if a ≠ 0 ∧ c.verbose = true ∧ err = false then umoven m a n else none

/-- src/aio.c:188-203, `print_iocbp` -/
def printIocbp (c : Call) (elem : List Nat) : List Tok :=
  match fetch c c.before false (number elem) 64 with
  | some l => printIocb (iocbOf l)
  | none => [.addr (number elem)]

/-- src/util.c:1925-1991, the loop of `print_array_ex`: elements from `i` on, `k` of them, of `es` bytes -/
def loop (get : Nat → Option (List Nat)) (print : List Nat → List Tok) (lim : Option Nat) (a es i : Nat) : Nat → List Tok
  | 0 => [.last]
  | k + 1 =>
    match get (a + i * es) with
    | none => if i = 0 then [.addr a] else [.more, .addr (a + i * es), .last]
    | some b =>
      (if i = 0 then [.first] else []) ++
        if lim.any (fun l => decide (l ≤ i)) then [.more, .last]
        else print b ++ loop get print lim a es (i + 1) k

/-- src/util.c:1893-1919 and 2082-2086: `print_array_ex` of `n` elements of `es` bytes at `a` -/
def array (limit : Option Nat) (get : Nat → Option (List Nat)) (print : List Nat → List Tok) (a n es : Nat) : List Tok :=
  if a = 0 then [.addr 0]
  else if n = 0 then [.first, .last]
  else if 2 ^ 64 ≤ a + n * es then [.addr a]
  else loop get print (limit.filter fun l => decide (l < n % 2 ^ 32)) a es 0 n

/-- src/defs.h:1852-1861, `truncate_klong_to_current_wordsize` -/
def klong (c : Call) (v : Nat) : Int := if c.word < 8 then signed 32 v else signed 64 v

/-- src/aio.c:231-246, `print_io_event`: four fields of eight bytes -/
def printEvent (l : List Nat) : List Tok :=
  let f o := number ((l.drop o).take 8)
  [.opened, .fld .evData (f 0), .fld .evObj (f 8), .fld .evRes (signed 64 (f 16)), .fld .evRes2 (signed 64 (f 24)), .closed]

/-- The decoders. -/
inductive Sys
  | setup | destroy | submit | cancel
  /-- io_getevents, and io_pgetevents, which has the set of signals -/
  | getevents (sig : Bool)
deriving DecidableEq, Repr

/-- src/aio.c:21-41, 205-228, 248-319: what is printed by the end of the call. `printnum_ptr` of io_setup is of a word of the
program (src/util.c, `printnum_ptr`). -/
def run (s : Sys) (c : Call) : List Tok :=
  match s with
  | .setup =>
    [.fld .nrEvents (c.arg 0 % 2 ^ 32 : Nat),
     match fetch c c.after c.failed (c.arg 1) c.word with
     | some l => .pointed (number l)
     | none => .addr (c.arg 1)]
  | .destroy => [.addr (c.arg 0)]
  | .submit =>
    [.addr (c.arg 0), .fld .nr (klong c (c.arg 1))] ++
      if klong c (c.arg 1) < 0 then [.addr (c.arg 2)]
      else array c.limit (fun a => fetch c c.before false a c.word) (printIocbp c) (c.arg 2) (klong c (c.arg 1)).toNat c.word
  | .cancel =>
    [.addr (c.arg 0)] ++
    (match fetch c c.before false (c.arg 1) 64 with
     | some l => .opened :: header (iocbOf l) ++ [.closed]
     | none => [.addr (c.arg 1)]) ++
    (match fetch c c.after c.failed (c.arg 2) 32 with
     | some l => printEvent l
     | none => [.addr (c.arg 2)])
  | .getevents sig =>
    [.addr (c.arg 0), .fld .minNr (klong c (c.arg 1)), .fld .nr (klong c (c.arg 2))] ++
    array c.limit (fun a => fetch c c.after c.failed a 32) printEvent (c.arg 3) c.rval 32 ++
    [.timeout (c.arg 4)] ++ if sig then [.sigset (c.arg 5)] else []

end Strace.Aio
