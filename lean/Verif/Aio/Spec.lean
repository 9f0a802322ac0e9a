import Verif.Aio.Model

/-!
# What asynchronous requests ask, and what their events tell

From linux/aio_abi.h and the kernel's fs/aio.c.
-/
namespace Strace.Aio.Spec

open Strace.Aio

/-- The number of `w` bytes at address `a`. -/
def word (m : Nat → Option Nat) (a w : Nat) : Nat := ((List.range w).map fun k => (m (a + k)).getD 0 * 256 ^ k).sum

/-- `v` is what `x` is as a number of `w` bits with a sign. -/
def Signed (w x : Nat) (v : Int) : Prop := -2 ^ (w - 1) ≤ v ∧ v < 2 ^ (w - 1) ∧ ∃ q : Int, (x : Int) = v + q * 2 ^ w

/-- Where the fields of a request and of an event are, and how long. -/
def layout : Fld → Nat × Nat
  | .data => (0, 8)
  | .key => (8, 4)
  | .rwFlags => (12, 4)
  | .opcode => (16, 2)
  | .reqprio => (18, 2)
  | .fildes => (20, 4)
  | .buf => (24, 8)
  | .nbytes => (32, 8)
  | .offset => (40, 8)
  | .flags => (56, 4)
  | .resfd => (60, 4)
  | .evData => (0, 8)
  | .evObj => (8, 8)
  | .evRes => (16, 8)
  | .evRes2 => (24, 8)
  | _ => (0, 0)

/-- The number that a field of the request or event at `p` holds. -/
def field (m : Nat → Option Nat) (p : Nat) (f : Fld) : Nat := word m (p + (layout f).1) (layout f).2

/-- `v` is the value of a field: descriptors, offsets and results have a sign; the priority is a number without one if
IOCB_FLAG_IOPRIO is set, and `aio_resfd` is a descriptor if IOCB_FLAG_RESFD is. -/
def Value (m : Nat → Option Nat) (p : Nat) (f : Fld) (v : Int) : Prop :=
  match f with
  | .fildes => Signed 32 (field m p f) v
  | .offset => Signed 64 (field m p f) v
  | .evRes => Signed 64 (field m p f) v
  | .evRes2 => Signed 64 (field m p f) v
  | .reqprio => if (field m p .flags).testBit 1 = true then v = field m p f else Signed 16 (field m p f) v
  | .resfd => if (field m p .flags).testBit 0 = true then Signed 32 (field m p f) v else v = field m p f
  | _ => v = field m p f

/-- The fields that the kernel looks at for an operation: pread, pwrite, preadv and pwritev (0, 1, 7, 8), poll (5), others. -/
def used (op : Nat) : List Fld :=
  [.data, .key, .rwFlags, .opcode, .reqprio, .fildes, .flags, .resfd] ++
  if op ∈ [0, 1, 7, 8] then [.buf, .nbytes, .offset] else if op = 5 then [.buf] else []

/-- The place of a field in the structure. -/
def place : Tok → Nat
  | .fld f _ => (layout f).1
  | .content _ _ => (layout .buf).1
  | .iov _ _ _ => (layout .buf).1
  | _ => 0

/-- What is shown in the place of a field: its value; the bytes of the buffer, for pwrite; the vector of buffers, for preadv and
pwritev, in the place of its address and its length. -/
def Shows (l : List Tok) (f : Fld) : Prop :=
  (∃ v, .fld f v ∈ l) ∨ (f = .buf ∧ ∃ a n, .content a n ∈ l) ∨ ((f = .buf ∨ f = .nbytes) ∧ ∃ a n b, .iov a n b ∈ l)

/-- What may be shown of the request at `p`: values of its fields, and its buffers, in the order of the structure. -/
def Sound (m : Nat → Option Nat) (p : Nat) (l : List Tok) : Prop :=
  (∀ t ∈ l, (∃ f v, t = .fld f v ∧ Value m p f v)
    ∨ (t = .content (field m p .buf) (field m p .nbytes) ∧ field m p .opcode = 1)
    ∨ (t = .iov (field m p .buf) (field m p .nbytes) false ∧ field m p .opcode = 7)
    ∨ (t = .iov (field m p .buf) (field m p .nbytes) true ∧ field m p .opcode = 8))
  ∧ (l.map place).Pairwise (· < ·)

/-- What has to be shown of the request at `p`: all that the kernel looks at, but for zeros. -/
def Complete (m : Nat → Option Nat) (p : Nat) (l : List Tok) : Prop :=
  ∀ f ∈ used (field m p .opcode), Shows l f ∨ field m p f = 0

/-- The `n` bytes at `p` can be read. -/
def Readable (m : Nat → Option Nat) (p n : Nat) : Prop := p ≠ 0 ∧ ∀ i, i < n → (m (p + i)).isSome

/-- What is to be shown of the request at `p`. -/
def Request (m : Nat → Option Nat) (p : Nat) (l : List Tok) : Prop :=
  (Readable m p 64 →
    ∃ b, l = .opened :: b ++ [.closed] ∧ Sound m p b ∧ (field m p .opcode ∈ [0, 1, 5, 7, 8] → Complete m p b))
  ∧ (¬ Readable m p 64 → l = [.addr p])

/-- What is to be shown of the event at `p`. -/
def Event (m : Nat → Option Nat) (p : Nat) (l : List Tok) : Prop :=
  ∃ v1 v2, l = [.opened, .fld .evData (field m p .evData), .fld .evObj (field m p .evObj), .fld .evRes v1, .fld .evRes2 v2,
    .closed] ∧ Value m p .evRes v1 ∧ Value m p .evRes2 v2

end Strace.Aio.Spec
