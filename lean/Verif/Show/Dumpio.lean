/-!
# Which data are dumped: src/syscall.c (dumpio), src/util.c (dumpiov_upto), src/msghdr.c, src/mmsghdr.c

The dump itself, `dumpstr`, is in `Verif.Show.Dump`; here it is an item of the output.  The tracee's memory is given by
what its structures hold: the buffers of a vector, the vector of a message header.  Memory of strace is not exhausted.
-/
namespace Strace.Show.Dumpio

/-- the calls `dumpio` tells apart; the 32-bit and 64-bit time variants of the message queue calls and of recvmmsg are one
each, they have the same case in both switches -/
inductive Sen
  | write | pwrite | send | sendto | mqTimedsend
  | writev | pwritev | pwritev2 | vmsplice
  | sendmsg | sendmmsg
  | read | pread | recv | recvfrom | mqTimedreceive
  | readv | preadv | preadv2
  | recvmsg | recvmmsg
  | other
  deriving DecidableEq, Repr

/-- a call that has ended.  `rval` is `u_rval` as an unsigned number; it is -1 if the call failed, src/syscall.c:1541-1543 -/
structure Call where
  sen : Sen
  u0 : Nat
  u1 : Nat
  u2 : Nat
  failed : Bool
  rval : Nat
  deriving DecidableEq, Repr

/-- the structures in the tracee's memory; `none` is memory that cannot be read -/
structure Mem where
  /-- a vector with this many elements at an address: base and length of each -/
  iov : Nat → Nat → Option (List (Nat × Nat))
  /-- a message header: address of the vector, number of elements -/
  msg : Nat → Option (Nat × Nat)
  /-- a header for more messages: the same, and `msg_len` -/
  mmsg : Nat → Option (Nat × Nat × Nat)
  /-- size of the latter -/
  mmsgSize : Nat
  /-- size of an element of a vector -/
  iovSize : Nat

/-- what is written after the line of the call -/
inductive Item
  /-- ` * n bytes in buffer i` -/
  | buffer (n i : Nat)
  /-- ` = n buffers in vector i` -/
  | vector (n i : Nat)
  /-- `dumpstr` of so many bytes at an address -/
  | data (addr n : Nat)
  /-- the message that a vector is too long -/
  | tooLong
  deriving DecidableEq, Repr

/-- the loop of `dumpiov_upto`, src/util.c:1577-1589 -/
def iovLoop : Nat → Nat → List (Nat × Nat) → List Item
  | _, _, [] => []
  | i, size, (base, len) :: l =>
    let n := if len > size then size else len
    if n = 0 then []
    else .buffer n i :: .data base n :: iovLoop (i + 1) (size - n) l

/-- `dumpiov_upto`, src/util.c:1540-1596; `len` is given before its conversion to `int` -/
def dumpiov (m : Mem) (len addr size : Nat) : List Item :=
  let l := len % 2 ^ 32
  if m.iovSize * l % 2 ^ 32 / m.iovSize ≠ l then [.tooLong]
  else
    match m.iov addr l with
    | none => []
    | some v => iovLoop 0 size v

/-- `dumpiov_in_msghdr`, src/msghdr.c:491-501 -/
def dumpMsg (m : Mem) (addr size : Nat) : List Item :=
  match m.msg addr with
  | none => []
  | some (iov, n) => dumpiov m n iov size

/-- the loop of `dumpiov_in_mmsghdr`, src/mmsghdr.c:136-146, from vector `i` on with so many left -/
def mmsgLoop (m : Mem) : Nat → Nat → Nat → List Item
  | 0, _, _ => []
  | left + 1, i, addr =>
    match m.mmsg addr with
    | none => []
    | some (iov, n, len) =>
      .vector n i :: (dumpiov m n iov len ++ mmsgLoop m left (i + 1) ((addr + m.mmsgSize) % 2 ^ 64))

/-- `dumpiov_in_mmsghdr`, src/mmsghdr.c:130-147 -/
def dumpMmsg (m : Mem) (c : Call) (addr : Nat) : List Item := mmsgLoop m (c.rval % 2 ^ 32) 0 addr

/-- the first switch of `dumpio`, src/syscall.c:357-378 -/
def written (m : Mem) (c : Call) : List Item :=
  match c.sen with
  | .write | .pwrite | .send | .sendto | .mqTimedsend => [.data c.u1 c.u2]
  | .writev | .pwritev | .pwritev2 | .vmsplice => dumpiov m c.u2 c.u1 (2 ^ 64 - 1)
  | .sendmsg => dumpMsg m c.u1 (2 ^ 64 - 1)
  | .sendmmsg => dumpMmsg m c c.u1
  | _ => []

/-- the second switch, src/syscall.c:385-408 -/
def received (m : Mem) (c : Call) : List Item :=
  match c.sen with
  | .read | .pread | .recv | .recvfrom | .mqTimedreceive => [.data c.u1 c.rval]
  | .readv | .preadv | .preadv2 => dumpiov m c.u2 c.u1 c.rval
  | .recvmsg => dumpMsg m c.u1 c.rval
  | .recvmmsg => dumpMmsg m c c.u1
  | _ => []

/-- `dumpio`, src/syscall.c:349-410; the sets are those of `-e write` and `-e read` -/
def dumpio (wset rset : Nat → Bool) (m : Mem) (c : Call) : List Item :=
  let fd := c.u0 % 2 ^ 32
  if fd ≥ 2 ^ 31 then []
  else
    (if wset fd then written m c else []) ++
      (if c.failed then [] else if rset fd then received m c else [])

end Strace.Show.Dumpio
