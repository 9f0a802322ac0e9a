/-!
# Model of the decoder of fcntl in its two phases

A decoder is called when the call begins and, unless it has then said that it is finished, when the call
ends.  The model covers the argument shown, the time it is shown, what memory it is taken from, and the kind of
the result, for both of fcntl and fcntl64, of 64-bit and of 32-bit x86 programs.

Simplifications: the tables of names (`lockfcmds`, `fdflags` and so on) are not in this model, so a shown value is
the number given to the table together with the table's purpose; `-e verbose` is on and `-e raw` is off.
-/
namespace Strace.Fcntl

/-- The phase of a call (defs.h:384-385, `entering` and `exiting`). -/
inductive Phase | entering | exiting
deriving DecidableEq, Repr

/-- The layout of the traced program: a 64-bit one or an i386 one (fetch_struct_flock.c:11-33; x32 is not
modelled). -/
inductive Pers | x64 | i386
deriving DecidableEq, Repr

/-- Memory of the traced process: the byte at each address, if it can be read (ucopy.c, `umoven`). -/
abbrev Mem := Nat → Option Nat

/-- One call: the personality, whether it is fcntl64, the command and the argument as 64-bit words, memory when
it begins and when it ends, the result and whether it has failed. -/
structure Call where
  pers : Pers
  is64 : Bool
  cmd : Nat
  arg : Nat
  before : Mem
  after : Mem
  rval : Int
  failed : Bool

/-- Table of a pid: what kind of number it is (defs.h:478-490, `enum pid_type`). -/
inductive PidKind | tid | tgid | pgid | none
deriving DecidableEq, Repr

/-- What is shown as the third argument. -/
inductive Arg
  /-- fcntl.c:109 -/
  | fdFlags (v : Nat)
  /-- fcntl.c:113 -/
  | ownerId (v : Int)
  /-- fcntl.c:117 and 122 -/
  | number (v : Int)
  /-- fcntl.c:126 -/
  | openModes (v : Nat)
  /-- fcntl.c:36-51; the pid is shown for the commands that get a lock -/
  | lock (type whence start len : Int) (pid : Option Int)
  /-- fcntl.c:71-99 -/
  | owner (type pid : Int) (kind : PidKind)
  /-- fcntl.c:144 -/
  | notify (v : Nat)
  /-- fcntl.c:148 -/
  | fd (v : Int)
  /-- fcntl.c:152 -/
  | lease (v : Nat)
  /-- fcntl.c:156 -/
  | seals (v : Nat)
  /-- fcntl.c:160 -/
  | signal (v : Int)
  /-- fcntl.c:214 -/
  | hex (v : Nat)
  /-- util.c, `printaddr` -/
  | addr (v : Nat)
deriving DecidableEq, Repr

/-- The explanation of the result (`tcp->auxstr`, fcntl.c:170-210). -/
inductive Aux
  | fdFlags (v : Int) | openModes (v : Int) | lease (v : Int) | seals (v : Int) | signal (v : Int)
deriving DecidableEq, Repr

/-- The format of the result (defs.h:455-466, `RVAL_*`). -/
inductive Kind | decimal | fd | tgid | pgid | hex
deriving DecidableEq, Repr

/-- What a decoder returns: whether it is finished (`RVAL_DECODED`, defs.h:468), the format of the result and the
explanation of it. -/
structure Ret where
  decoded : Bool
  kind : Kind
  aux : Option Aux
deriving DecidableEq, Repr

/-- fcntl.c:217 -/
def done : Ret := ⟨true, .decimal, none⟩

/-- `return 0` -/
def again : Ret := ⟨false, .decimal, none⟩

/-- A word of the register as `int`. -/
def toInt (v : Nat) : Int := if v % 2 ^ 32 < 2 ^ 31 then (v % 2 ^ 32 : Nat) else (v % 2 ^ 32 : Nat) - 2 ^ 32

/-- A word of the register as a signed 64-bit number (print_fields.h, `PRINT_VAL_D`). -/
def toLong (v : Nat) : Int := if v % 2 ^ 64 < 2 ^ 63 then (v % 2 ^ 64 : Nat) else (v % 2 ^ 64 : Nat) - 2 ^ 64

/-- ucopy.c, `umoven`: `n` bytes from address `a` on, if all of them can be read. -/
def umoven (m : Mem) (a : Nat) : Nat → Option (List Nat)
  | 0 => some []
  | n + 1 =>
    match m a, umoven m (a + 1) n with
    | some b, some l => some (b :: l)
    | _, _ => none

/-- The number in the `n` bytes at offset `o` of a structure, the least significant first. -/
def word (l : List Nat) (o : Nat) : Nat → Nat
  | 0 => 0
  | n + 1 => l.getD o 0 + 256 * word l (o + 1) n

/-- The same as a signed number. -/
def sword (l : List Nat) (o n : Nat) : Int :=
  if word l o n < 2 ^ (8 * n - 1) then word l o n else (word l o n : Int) - 2 ^ (8 * n)

/-- util.c:1733-1757 (`umove_or_printaddr`): the bytes of a structure in the memory of the phase; nothing is taken on
exiting from a call that has failed. -/
def fetch (ph : Phase) (c : Call) (n : Nat) : Option (List Nat) :=
  if c.arg = 0 ∨ (ph = .exiting ∧ c.failed = true) then none
  else umoven (if ph = .entering then c.before else c.after) c.arg n

/-- The sizes and offsets of the members of `struct flock` and `struct flock64` (linux/fcntl.h,
fetch_struct_flock.c:35-73): the size of all, and the offset and the size of l_start and l_len, and the offset
of l_pid. -/
def layout (p : Pers) (wide : Bool) : Nat × Nat × Nat × Nat × Nat :=
  match p, wide with
  | .x64, _ => (32, 8, 16, 8, 24)
  | .i386, false => (16, 4, 8, 4, 12)
  | .i386, true => (24, 4, 12, 8, 20)

/-- fcntl.c:35-69 and fetch_struct_flock.c:35-73. -/
def printFlock (ph : Phase) (c : Call) (wide getlk : Bool) : Arg :=
  match layout c.pers wide with
  | (size, start, len, w, pid) =>
    match fetch ph c size with
    | none => .addr c.arg
    | some l =>
      .lock (sword l 0 2) (sword l 2 2) (sword l start w) (sword l len w)
        (if getlk then some (sword l pid 4) else none)

/-- fcntl.c:82-94 -/
def pidKind (t : Int) : PidKind :=
  if t = 0 then .tid else if t = 1 then .tgid else if t = 2 then .pgid else .none

/-- fcntl.c:71-99 -/
def printOwner (ph : Phase) (c : Call) : Arg :=
  match fetch ph c 8 with
  | none => .addr c.arg
  | some l => .owner (sword l 0 4) (sword l 4 4) (pidKind (sword l 0 4))

/-- The result as seen in a phase: on entering a call the field still holds the result of the call
before (syscall.c:1541-1600 are the only places that store it, on exiting). -/
def rvalAt (ph : Phase) (c : Call) (prev : Int) : Int :=
  match ph with
  | .entering => prev
  | .exiting => c.rval

/-- A result as `int`. -/
def intOf (v : Int) : Int := (v + 2 ^ 31) % 2 ^ 32 - 2 ^ 31

/-- fcntl.c:101-218, of a phase and of the result that the field holds in it. -/
def printFcntl (ph : Phase) (c : Call) (prev : Int) : List Arg × Ret :=
  let cmd := c.cmd % 2 ^ 32
  let rval := rvalAt ph c prev
  if cmd = 2 then ([.fdFlags (c.arg % 2 ^ 32)], done)
  else if cmd = 8 then ([.ownerId (toInt c.arg)], done)
  else if cmd = 1031 then ([.number (toLong c.arg)], done)
  else if cmd = 0 ∨ cmd = 1030 then ([.number (toLong c.arg)], ⟨true, .fd, none⟩)
  else if cmd = 4 then ([.openModes (c.arg % 2 ^ 32)], done)
  else if cmd = 6 ∨ cmd = 7 then ([printFlock ph c false false], done)
  else if cmd = 37 ∨ cmd = 38 then ([printFlock ph c true false], done)
  else if cmd = 15 then ([printOwner ph c], done)
  else if cmd = 1026 then ([.notify c.arg], done)
  else if cmd = 1027 then ([.fd (toInt c.arg)], done)
  else if cmd = 1024 then ([.lease c.arg], done)
  else if cmd = 1033 then ([.seals c.arg], done)
  else if cmd = 10 then ([.signal (toInt c.arg)], done)
  else if cmd = 9 then ([], ⟨true, if intOf rval < 0 then .pgid else .tgid, none⟩)
  else if cmd = 1032 then ([], done)
  else if cmd = 1 then
    if ph = .entering ∨ c.failed = true ∨ rval = 0 then ([], again) else ([], ⟨false, .hex, some (.fdFlags rval)⟩)
  else if cmd = 3 then
    if ph = .entering ∨ c.failed = true then ([], again) else ([], ⟨false, .hex, some (.openModes rval)⟩)
  else if cmd = 5 then
    if ph = .entering then ([], again) else ([printFlock ph c false true], done)
  else if cmd = 36 then
    if ph = .entering then ([], again) else ([printFlock ph c true true], done)
  else if cmd = 16 then
    if ph = .entering then ([], again) else ([printOwner ph c], done)
  else if cmd = 1025 then
    if ph = .entering ∨ c.failed = true then ([], again) else ([], ⟨false, .hex, some (.lease rval)⟩)
  else if cmd = 1034 then
    if ph = .entering ∨ c.failed = true ∨ rval = 0 then ([], again) else ([], ⟨false, .hex, some (.seals rval)⟩)
  else if cmd = 11 then
    if ph = .entering ∨ c.failed = true ∨ rval = 0 then ([], again)
    else ([], ⟨false, .decimal, some (.signal rval)⟩)
  else ([.hex c.arg], done)

/-- fcntl.c:220-258: both entry points; the descriptor and the command are shown on entering and are not in
the model. -/
def sysFunc (ph : Phase) (c : Call) (prev : Int) : List Arg × Ret :=
  if c.is64 = true then
    if c.cmd % 2 ^ 32 = 13 ∨ c.cmd % 2 ^ 32 = 14 then ([printFlock ph c true false], done)
    else if c.cmd % 2 ^ 32 = 12 then
      if ph = .exiting then ([printFlock ph c true true], again) else ([], again)
    else printFcntl ph c prev
  else printFcntl ph c prev

/-- What is shown of a call: the argument shown when it begins, the argument shown when it ends, the format of
the result and the explanation of it. -/
structure Shown where
  early : List Arg
  late : List Arg
  kind : Kind
  aux : Option Aux
deriving DecidableEq, Repr

/-- syscall.c:673, 682 and 830-839: the decoder is called on entering, and on exiting unless it has said that it
is finished, in which case what it then returned is the description of the result. -/
def run (prev : Int) (c : Call) : Shown :=
  let e := sysFunc .entering c prev
  if e.2.decoded = true then ⟨e.1, [], e.2.kind, e.2.aux⟩
  else
    let x := sysFunc .exiting c prev
    ⟨e.1, x.1, x.2.kind, x.2.aux⟩

/-- A history of calls of one thread: the field of the result goes from each call to the next
(syscall.c:1541-1600). -/
def trace (prev : Int) : List Call → List Shown
  | [] => []
  | c :: l => run prev c :: trace c.rval l

end Strace.Fcntl
