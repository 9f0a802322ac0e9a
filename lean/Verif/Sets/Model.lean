import Verif.Bits.Model
import Verif.Sized.Model
/-!
# Sets passed as arrays of bits: src/affinity.c, src/numa.c, src/evdev.c (decode_bitset), src/net.c (ICMP filters)

`w` is the size of a word of the tracee, 4 or 8; `be` says that the machine is big-endian.  Members are shown as numbers here:
how an event code or an ICMP type is named is not modelled.
-/
namespace Strace.Sets
open Strace.Bits Strace.Sized

/-- `pos_xor_mask` of `next_set_bit`, src/util.c:294 -/
def xorMask (be : Bool) (w : Nat) : Nat := if be = true then w - 1 else 0

inductive Out
  | addr (a : Nat)
  /-- `[...]` with its members and whether it ends in `...` -/
  | set (members : List Nat) (more : Bool)
  /-- `~[...]` -/
  | inverted (members : List Nat)
  /-- the words of the array themselves, as many as the number says -/
  | words (n : Nat)
  /-- a set followed by its words in a comment -/
  | both (members : List Nat) (more : Bool) (n : Nat)
  deriving DecidableEq, Repr

/-- ROUNDUP of src/macros.h -/
def roundUp (n w : Nat) : Nat := (n + w - 1) / w * w

/-- `print_affinitylist`, src/affinity.c:44-92.  `maxSize` is the result of `get_cpuset_size`, `err` says that the system call
has failed; the allocation succeeds.  `none`: a byte outside the buffer is read.  Sizes are below 2^28, so that `int` and
`unsigned int` are exact. -/
def affinity (mem : Nat → Option Byte) (be vb err : Bool) (w maxSize a len : Nat) : Option Out :=
  if vb = false ∨ err = true ∨ a = 0 then some (.addr a)
  else if len = 0 then some (.set [] false)
  else
    match moven mem a (min len maxSize) with
    | none => some (.addr a)
    | some l =>
      (scan (l.map (·.val) ++ List.replicate (roundUp (min len maxSize) w - min len maxSize) 0) (xorMask be w)
        (roundUp (min len maxSize) w * 8) 0).map fun is => .set is (decide (roundUp (min len maxSize) w < len))

/-- the number of bits of the array that `decode_bitset` looks at, src/evdev.c:154-157 -/
def evdevBits (maxNr rval : Nat) : Nat := if rval > maxNr / 8 then maxNr else rval * 8

/-- the bytes of the array that `decode_bitset` reads, src/evdev.c:159 -/
def evdevSize (w maxNr rval : Nat) : Nat := roundUp ((evdevBits maxNr rval + 7) / 8) w

inductive Style
  | raw
  | brief
  | verbose
  deriving DecidableEq, Repr

/-- the members shown, src/evdev.c:175-191: the first and, when abbreviating, at most three more -/
def evdevShown (ab : Bool) (is : List Nat) : List Nat × Bool :=
  if ab = true then (is.take 4, decide (4 < is.length)) else (is, false)

/-- `decode_bitset`, src/evdev.c:146-209 -/
def evdevSet (mem : Nat → Option Byte) (be vb err ab : Bool) (st : Style) (w maxNr a rval : Nat) : Option Out :=
  if err = true ∨ evdevSize w maxNr rval = 0 then some (.addr a)
  else
    match fetch mem vb a (evdevSize w maxNr rval) with
    | none => some (.addr a)
    | some l =>
      match st with
      | .raw => some (.words (evdevSize w maxNr rval / w))
      | .brief =>
        (scan (l.map (·.val)) (xorMask be w) (evdevBits maxNr rval) 0).map fun is =>
          .set (evdevShown ab is).1 (evdevShown ab is).2
      | .verbose =>
        (scan (l.map (·.val)) (xorMask be w) (evdevBits maxNr rval) 0).map fun is =>
          .both (evdevShown ab is).1 (evdevShown ab is).2 (evdevSize w maxNr rval / w)

/-- the largest event codes passed to `decode_bitset`, src/evdev.c:250-294 and 330-346, with the values of
bundled/linux/include/uapi/linux/input-event-codes.h and input.h -/
def evdevMax (ev : Nat) : Option Nat :=
  if ev = 0 then some 0x1f
  else if ev = 1 then some 0x2ff
  else if ev = 2 then some 0x0f
  else if ev = 3 then some 0x3f
  else if ev = 4 then some 0x07
  else if ev = 5 then some 0x10
  else if ev = 0x11 then some 0x0f
  else if ev = 0x12 then some 0x07
  else if ev = 0x14 then some 0x01
  else if ev = 0x15 then some 0x7f
  else if ev = 0x17 then some 0x01
  else none

/-- an integer of `n` bytes as it lies in memory -/
def bytesOf (be : Bool) (n v : Nat) : List Nat :=
  if be = true then ((List.range n).map fun k => v / 256 ^ k % 256).reverse else (List.range n).map fun k => v / 256 ^ k % 256

/-- the integer that lies in memory as the given bytes -/
def numOf (be : Bool) (l : List Byte) : Nat := if be = true then le l.reverse else le l

/-- the number of bytes of an ICMP filter read, src/net.c:834-839 -/
def icmpLen (len : Int) : Nat := if len > 4 then 4 else len.toNat

/-- what is shown of a filter, src/net.c:844-877: more than half of the bits set are shown as those that are not -/
def icmpOut (be : Bool) (w v : Nat) : Option Out :=
  if popcount32 [v] > 4 * 8 / 2 then
    (scan (bytesOf be (if w > 4 then w else 4) (2 ^ 32 - 1 - v)) (xorMask be w) 32 0).map .inverted
  else (scan (bytesOf be (if w > 4 then w else 4) v) (xorMask be w) 32 0).map fun is => .set is false

/-- `print_icmp_filter`, src/net.c:829-878; the filter is all ones before the bytes are read into it -/
def icmpFilter (mem : Nat → Option Byte) (be vb : Bool) (w a : Nat) (len : Int) : Option Out :=
  if len ≤ 0 then some (.addr a)
  else
    match fetch mem vb a (icmpLen len) with
    | none => some (.addr a)
    | some l => icmpOut be w (numOf be (l ++ List.replicate (4 - icmpLen len) 255))

/-- `print_nodemask`, src/numa.c:26-43; the words are written by print_array, whose elements are not modelled here -/
def nodemask (w a maxnodes : Nat) : Out :=
  if (maxnodes + 8 * w - 2) % 2 ^ 64 / (8 * w) < maxnodes / (8 * w) ∨
      (maxnodes ≠ 0 ∧ (maxnodes + 8 * w - 2) % 2 ^ 64 / (8 * w) = 0) then .addr a
  else .words ((maxnodes + 8 * w - 2) % 2 ^ 64 / (8 * w))

end Strace.Sets
