/-!
# Model of the display of buffers that a call has filled

Each decoder chooses, from the result of the call, how much of a buffer it shows; three printers show it.

Simplifications: `-e verbose` is on and `-e raw` is off; sockets are not netlink sockets (those are C32 and C93);
the quoting of the bytes is C09 to C11 and C119, and the printing of an element of an array belongs to its decoder,
so that what is shown is the bytes themselves.  64-bit programs.
-/
namespace Strace.Filled

/-- Memory of the traced process when the call has ended. -/
abbrev Mem := Nat → Option Nat

/-- Options: -s, and whether the call is abbreviated (-e abbrev). -/
structure Env where
  max : Nat
  short : Bool

/-- The outcome of a call: `tcp->u_rval`, and `syserror(tcp)` (syscall.c:1541-1600). -/
structure Ret where
  rval : Int
  failed : Bool

/-- What is shown. -/
inductive Shown
  /-- the pointer only (NULL included) -/
  | addr
  /-- a string of bytes, and whether "..." follows -/
  | bytes (l : List Nat) (more : Bool)
  /-- the same in the style that leaves out a NUL at the end, and then "..." also (C119 tells when) -/
  | value (l : List Nat) (more : Bool)
  /-- elements of an array, each as its bytes, and whether "..." follows -/
  | elems (l : List (List Nat)) (more : Bool)
  /-- a message: the bytes of its type, and its text -/
  | msg (type : List Nat) (text : Shown)
  /-- memory of strace that has not been written -/
  | undef
deriving DecidableEq, Repr

/-- Conversion to `kernel_ulong_t`. -/
def u64 (v : Int) : Nat := (v % 2 ^ 64).toNat

/-- Conversion to `unsigned int`. -/
def u32 (v : Int) : Nat := (v % 2 ^ 32).toNat

/-- ucopy.c:291-334, `umoven`: `n` bytes from address `a` on, if all of them can be read (C19). -/
def umoven (m : Mem) (a : Nat) : Nat → Option (List Nat)
  | 0 => some []
  | n + 1 =>
    match m a, umoven m (a + 1) n with
    | some b, some l => some (b :: l)
    | _, _ => none

/-- util.c:1424-1492, `printstr_ex` without QUOTE_0_TERMINATED. -/
def printstr (E : Env) (m : Mem) (a len : Nat) (omit0 : Bool) : Shown :=
  if a = 0 then .addr
  else
    match umoven m a (if E.max + 1 > len then len else E.max + 1) with
    | none => .addr
    | some l =>
      if omit0 = true then .value (l.take E.max) (decide (len ≠ 0 ∧ len > E.max))
      else .bytes (l.take E.max) (decide (len ≠ 0 ∧ len > E.max))

/-- ucopy.c:403-468, `umovestr` (C20): the bytes up to the first NUL, and whether there is one among the `n`. -/
def umovestr (m : Mem) (a : Nat) : Nat → Option (List Nat × Bool)
  | 0 => some ([], false)
  | n + 1 =>
    match m a with
    | none => none
    | some b =>
      if b = 0 then some ([], true)
      else
        match umovestr m (a + 1) n with
        | none => none
        | some (l, z) => some (b :: l, z)

/-- util.c:1374-1404, `printpathn`, and 1355-1365, `print_quoted_cstring`; without a NUL one byte less than there is
is shown, and "...".  With a length of 0 the byte that is looked at has not been written. -/
def printpathn (m : Mem) (a n : Nat) : Shown :=
  if a = 0 then .addr
  else
    let n := if n > 4096 then 4096 else n
    if n = 0 then .undef
    else
      match umovestr m a n with
      | none => .addr
      | some (l, true) => .bytes l false
      | some (l, false) => .bytes l.dropLast true

/-- util.c:1925-1977: the loop of `print_array_ex`, with `lim` elements left before the rest is abbreviated. -/
def elemsFrom (m : Mem) (es : Nat) : Nat → Nat → Nat → List (List Nat) × Bool
  | _, 0, _ => ([], false)
  | cur, n + 1, lim =>
    match umoven m cur es with
    | none => ([], true)
    | some e =>
      match lim with
      | 0 => ([], true)
      | lim + 1 =>
        let r := elemsFrom m es (cur + es) n lim
        (e :: r.1, r.2)

/-- util.c:1880-1991, `print_array_ex` with `tfetch_mem` (util.c:1732-1739) and without indices; 2082-2086,
`sequence_truncation_needed`, takes the number of elements as `unsigned int`. -/
def printArray (E : Env) (m : Mem) (failed : Bool) (a es n : Nat) : Shown :=
  if a = 0 then .addr
  else if n = 0 then .elems [] false
  else
    let size := n * es % 2 ^ 64
    let stop := (a + size) % 2 ^ 64
    if stop ≤ a ∨ size / es ≠ n then .addr
    else if failed = true then .addr
    else
      match umoven m a es with
      | none => .addr
      | some _ =>
        let r := elemsFrom m es a n (if E.short = true ∧ n % 2 ^ 32 > E.max then E.max else n)
        .elems r.1 r.2

/-- io.c:16-34 and 185-206 (read, pread), readlink.c:24-38, mq.c:79-85, getrandom.c:13-20, syslog.c:67-74,
lookup_dcookie.c:20-24, evdev.c:323-330 (names). -/
def read (E : Env) (m : Mem) (r : Ret) (a : Nat) : Shown :=
  if r.failed = true then .addr else printstr E m a (u64 r.rval) false

/-- net.c:319-334 and 346-366 (recv, recvfrom), with 73-85. -/
def recv (E : Env) (m : Mem) (r : Ret) (a size : Nat) : Shown :=
  if r.failed = true then .addr else printstr E m a (min (u64 r.rval) size) false

/-- getcwd.c:12-17; the length is an `unsigned int`. -/
def getcwd (m : Mem) (r : Ret) (a : Nat) : Shown :=
  if r.failed = true then .addr else printpathn m a (u32 r.rval)

/-- xattr.c:22-32 -/
def xattrVal (E : Env) (m : Mem) (a size : Nat) : Shown :=
  if size > 65536 then .addr else printstr E m a size true

/-- xattr.c:73-99 and 281-316 (getxattr, fgetxattr; the value of getxattrat): with a size of 0 all is shown when the
call begins; the result of a failed call is −1, which is a large size. -/
def getxattr (E : Env) (m : Mem) (r : Ret) (a size : Nat) : Shown :=
  if size = 0 then .addr else xattrVal E m a (u64 r.rval)

/-- xattr.c:124-134 (listxattr, flistxattr, listxattrat). -/
def listxattr (E : Env) (m : Mem) (r : Ret) (a size : Nat) : Shown :=
  if size = 0 ∨ r.failed = true then .addr else printstr E m a (u64 r.rval) false

/-- keyctl.c:105-126 (KEYCTL_READ, and with `hasNul` KEYCTL_DESCRIBE and KEYCTL_GET_SECURITY); 276-279 are the same. -/
def keyRead (E : Env) (m : Mem) (r : Ret) (a size : Nat) (hasNul : Bool) : Shown :=
  if r.failed = true then .addr
  else printstr E m a (if r.rval ≥ 0 ∧ u64 r.rval > size then size else u64 r.rval) hasNul

/-- keyctl.c:403-447 on exiting (KEYCTL_PKEY_ENCRYPT, _DECRYPT, _SIGN): the size of the output buffer, kept from
entering (C107). -/
def pkey (E : Env) (m : Mem) (r : Ret) (a outLen : Nat) : Shown :=
  if r.failed = true then .addr else printstr E m a outLen false

/-- keyctl.c:507-528 -/
def caps (E : Env) (m : Mem) (r : Ret) (a size : Nat) : Shown :=
  if r.failed = true then .addr else printArray E m r.failed a 1 (min size (u64 r.rval))

/-- ipc_msg.c:70-84 and 135-137, print_msgbuf.c:23-36: the structure has the type, 8 bytes, and one byte of text, and
is 16 bytes long with its padding. -/
def msgrcv (E : Env) (m : Mem) (r : Ret) (a size : Nat) : Shown :=
  if a = 0 ∨ r.failed = true then .addr
  else
    match umoven m a 16 with
    | none => .addr
    | some l => .msg (l.take 8) (printstr E m (a + 8) size false)

/-- uid.c:178-194 and 215-218; `ngroupsMax` is `sysconf(_SC_NGROUPS_MAX)`. -/
def getgroups (E : Env) (m : Mem) (r : Ret) (a ngroupsMax : Nat) : Shown :=
  if u32 r.rval > ngroupsMax then .addr else printArray E m r.failed a 4 (u32 r.rval)

/-- epoll.c:84-88: elements of 12 bytes; aio.c:292-296: of 32; lsm.c:244-245: of 8; ptrace.c:480-482 with
printsiginfo.c:323-330: of 128. -/
def counted (E : Env) (m : Mem) (r : Ret) (a es : Nat) : Shown := printArray E m r.failed a es (u64 r.rval)

/-- listmount.c:78-79 -/
def mounts (E : Env) (m : Mem) (r : Ret) (a size : Nat) : Shown :=
  printArray E m r.failed a 8 (min size (u64 r.rval))

/-- The calls. -/
inductive Kind
  | read | recv | getcwd | getxattr | listxattr | keyRead (hasNul : Bool) | pkey | caps | msgrcv | getgroups
  | epoll | aio | lsm | siginfo | mounts
deriving DecidableEq, Repr

/-- What is shown of the buffer at address `a`, of which the caller has said that it has room for `size`. -/
def show' (k : Kind) (E : Env) (ngroupsMax : Nat) (m : Mem) (r : Ret) (a size : Nat) : Shown :=
  match k with
  | .read => read E m r a
  | .recv => recv E m r a size
  | .getcwd => getcwd m r a
  | .getxattr => getxattr E m r a size
  | .listxattr => listxattr E m r a size
  | .keyRead z => keyRead E m r a size z
  | .pkey => pkey E m r a size
  | .caps => caps E m r a size
  | .msgrcv => msgrcv E m r a size
  | .getgroups => getgroups E m r a ngroupsMax
  | .epoll => counted E m r a 12
  | .aio => counted E m r a 32
  | .lsm => counted E m r a 8
  | .siginfo => counted E m r a 128
  | .mounts => mounts E m r a size

end Strace.Filled
