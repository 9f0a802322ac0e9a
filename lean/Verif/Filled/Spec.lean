import Verif.Filled.Model
/-!
# What a call writes

The contract of each call, from its manual page: what it may have written at the buffer, `data`, when it returns
`rval` without an error, of a caller that has given room for `size`.
-/
namespace Strace.Filled.Spec

/-- The size of an element of the buffer, 1 for calls that write bytes. -/
def unit : Kind → Nat
  | .getgroups => 4
  | .epoll => 12
  | .aio => 32
  | .lsm => 8
  | .siginfo => 128
  | .mounts => 8
  | _ => 1

/-- The contract. -/
def Wrote (k : Kind) (ngroupsMax size : Nat) (rval : Int) (data : List Nat) : Prop :=
  match k with
  /- read(2), readlink(2), getrandom(2), mq_receive(3), syslog(2): the result is the number of bytes -/
  | .read => rval = data.length ∧ data.length ≤ size
  /- recv(2): with MSG_TRUNC the result is the length of the packet, more than what there is room for -/
  | .recv => 0 ≤ rval ∧ (data.length : Int) = min rval size
  /- getcwd(2), raw: the length of the path with the NUL, at most PATH_MAX -/
  | .getcwd => rval = data.length ∧ data.length ≤ size ∧ data.length ≤ 4096 ∧ ∃ p, data = p ++ [0] ∧ 0 ∉ p
  /- getxattr(2), listxattr(2): a size of 0 asks for the length; XATTR_SIZE_MAX is 65536 -/
  | .getxattr => if size = 0 then 0 ≤ rval ∧ data = [] else rval = data.length ∧ data.length ≤ size ∧ data.length ≤ 65536
  | .listxattr => if size = 0 then 0 ≤ rval ∧ data = [] else rval = data.length ∧ data.length ≤ size
  /- keyctl(2): the result is the length there is, irrespective of the size; what is written if there is no room
     is not specified (Linux writes nothing) -/
  | .keyRead _ => 0 ≤ rval ∧ if rval ≤ size then (data.length : Int) = rval else data.length ≤ size
  /- keyctl_pkey_encrypt(3): the result is the number of bytes written -/
  | .pkey => rval = data.length ∧ data.length ≤ size
  /- keyctl_capabilities(3): the result is the number of bytes there are -/
  | .caps => 0 ≤ rval ∧ (data.length : Int) = min rval size
  /- msgrcv(2): the result is the number of bytes of the text, which follows the type -/
  | .msgrcv => ∃ t x, data = t ++ x ∧ t.length = 8 ∧ rval = x.length ∧ x.length ≤ size
  /- getgroups(2): a size of 0 asks for the number -/
  | .getgroups => 0 ≤ rval ∧ rval ≤ ngroupsMax ∧
      if size = 0 then data = [] else (data.length : Int) = 4 * rval ∧ rval ≤ size
  /- epoll_wait(2), io_getevents(2), lsm_list_modules(2), PTRACE_PEEKSIGINFO, listmount(2): the number of elements -/
  | k => 0 ≤ rval ∧ (data.length : Int) = unit k * rval ∧ rval ≤ size

/-- The bytes `data` are in memory from address `a` on. -/
def Holds (m : Mem) (a : Nat) (data : List Nat) : Prop :=
  ∀ i, i < data.length → m (a + i) = some (data.getD i 0)

/-- A list cut into pieces of length `n`. -/
def pieces (n : Nat) : Nat → List Nat → List (List Nat)
  | 0, _ => []
  | k + 1, l => l.take n :: pieces n k (l.drop n)

/-- Data shown up to a limit. -/
def upTo (max : Nat) (data : List Nat) : Shown := .bytes (data.take max) (decide (max < data.length))

end Strace.Filled.Spec
