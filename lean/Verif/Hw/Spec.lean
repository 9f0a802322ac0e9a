import Verif.Hw.Model
/-!
# What a hardware address is shown as

The bytes in hexadecimal, with colons between them.  This is said by a reader: the text of an address is what is read as its bytes.
-/

namespace Strace.Hw

/-- a hexadecimal digit -/
def digitVal (c : Char) : Option Nat :=
  if '0' ≤ c ∧ c ≤ '9' then some (c.toNat - 48) else if 'a' ≤ c ∧ c ≤ 'f' then some (c.toNat - 87) else none

/-- read an address: pairs of digits with colons between them -/
def readAddr : List Char → Option (List Nat)
  | [] => some []
  | [_] => none
  | [a, b] =>
    match digitVal a, digitVal b with
    | some x, some y => some [x * 16 + y]
    | _, _ => none
  | [_, _, _] => none
  | a :: b :: c :: d :: s =>
    match digitVal a, digitVal b, readAddr (d :: s) with
    | some x, some y, some r => if c = ':' then some ((x * 16 + y) :: r) else none
    | _, _, _ => none

/-- bytes -/
def Bytes (bs : List Nat) : Prop := ∀ b ∈ bs, b < 256

/-- the bytes of the place: those passed to strace, or that the kernel has written -/
def Place.bytes : Place → List Nat
  | .field a => a
  | .mreq a _ => a
  | .ifr a _ => a
  | .link p _ => p
  | .neigh p => p

/-- the lengths of the addresses of types of devices, by the kernel's headers (if_arp.h for the types; the length is what the
drivers of that type set `addr_len` to): NET/ROM and AX.25 have callsigns of 7 bytes, Ethernet and its kin 6, and so on.  The
devices that have no addresses have 0. -/
def lengths : List (Nat × Nat) :=
  [(0, 7), (3, 7)] ++
  [1, 6, 772, 774, 780, 801, 802, 803].map (·, 6) ++
  [7, 290, 773, 820, 821].map (·, 1) ++
  [(15, 2), (24, 16), (769, 16), (823, 16), (32, 20), (270, 5)] ++
  [27, 804, 805, 825].map (·, 8) ++
  [768, 776, 778, 783].map (·, 4) ++
  [256, 271, 280, 512, 518, 519, 777, 779, 822, 824, 826].map (·, 0)

/-- the length for the type; none for other types -/
def lengthOf (t : Nat) : Option Nat := (lengths.find? (·.1 == t)).map (·.2)

/-- the length an address of the device has, where the message says it: `mr_alen` (no more than there is room for), or the
type of the device (if its addresses have a length) -/
def Place.length : Place → Nat
  | .mreq a n => if n ≤ a.length then n else a.length
  | .ifr a t =>
    match lengthOf t with
    | some n => if n ≤ a.length then n else a.length
    | none => a.length
  | p => p.bytes.length

/-- the address -/
def Place.address (p : Place) : List Nat := p.bytes.take p.length

/-- a place as the structures and messages have it: arrays that are fixed are of at most 32 bytes -/
def Place.Ok : Place → Prop
  | .field a => Bytes a ∧ a.length ≤ 32
  | .mreq a _ => Bytes a ∧ a.length = 8
  | .ifr a _ => Bytes a ∧ a.length = 14
  | .link p f => Bytes p ∧ f < 256
  | .neigh p => Bytes p

/-- the two cases in which the address cannot be read.  A link's address is cut: its length is looked up with the address family
of the message as if that were the type of the device.  And an address of no bytes is shown as the last one before it that had
some. -/
def Wrong (before : List Place) (p : Place) : Prop :=
  (∃ pl f n, p = .link pl f ∧ lengthOf f = some n ∧ n < pl.length) ∨
  (p.address = [] ∧ ∃ q ∈ before, q.address ≠ [] ∧ q.bytes.length ≤ 32)

/-- the token with this text, in this style -/
def textIn : Style → List Tok → Option (List Char)
  | .abbrev', [.text s] => some s
  | .verbose, [.quoted _, .comment s] => some s
  | _, _ => none

/-- the bytes in quotes -/
def quotedIn : List Tok → Option (List Nat)
  | .quoted bs :: _ => some bs
  | _ => none

end Strace.Hw
