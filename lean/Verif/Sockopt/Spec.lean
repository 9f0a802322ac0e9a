import Verif.Sockopt.Model
/-!
# C111: the value of a socket option
-/
namespace Strace.Sockopt

/-- a number in `w` bytes, little-endian -/
def leb : Nat → Nat → List Nat
  | 0, _ => []
  | w + 1, v => v % 256 :: leb w (v / 256)

/-- the bytes that a member shown stands for -/
def Part.bytes : Part → List Nat
  | .whole w v => leb w v
  | .part bs => bs

/-- the bytes that a reader can tell from what is shown -/
def Out.bytes : Out → Option (List Nat)
  | .num _ v => some (leb 4 v)
  | .str _ bs _ => some bs
  | .fields l => some (l.flatMap fun m => m.2.bytes)
  | .bits neg l => some (leb 4 (if neg then 2 ^ 32 - 1 - (l.map (2 ^ ·)).sum else (l.map (2 ^ ·)).sum))
  | .words l _ => some (l.flatMap (leb 4))
  | _ => none

/-- the memory holds these bytes -/
def Holds (mem : Mem) (bs : List Nat) : Prop := (∀ i, ∀ h : i < bs.length, mem i = some bs[i]) ∧ ∀ b ∈ bs, b < 256

/-- the type of an option: an integer; a structure that may be given in part; exactly 4 bytes; words; anything else by its length; a
filter program, which is C108 -/
inductive Kind where
  | int | structure (size : Nat) | four | words | any | prog
  deriving DecidableEq

/-- the types of the options of getsockopt that are not of any length: socket(7), ip(7), packet(7), raw(7), netlink(7). The integers of
SOL_SOCKET are all but those known to be something else -/
def getKind (level name : Nat) : Kind :=
  if level = 1 then
    if name = 13 then .structure 8
    else if name = 17 then .structure 12
    else if name = 26 then .prog
    else if name = 0 ∨ 77 < name then .any
    -- SO_TYPE, timeouts, security, SO_BINDTODEVICE, SO_PEERNAME, SO_PEERSEC, SO_PROTOCOL, SO_DOMAIN
    else if name = 3 ∨ (20 ≤ name ∧ name ≤ 25) ∨ name = 28 ∨ name = 31 ∨ name = 38 ∨ name = 39 then .any
    -- SO_MAX_PACING_RATE, SO_BPF_EXTENSIONS, SO_ATTACH_..., SCM_TIMESTAMPING_OPT_STATS, SO_MEMINFO, SO_COOKIE, SO_PEERGROUPS, SO_TXTIME, ...
    else if name = 47 ∨ name = 48 ∨ name = 50 ∨ name = 51 ∨ name = 52 ∨ name = 54 ∨ name = 55 ∨ name = 57 ∨ name = 58 ∨ name = 59 then .any
    else if name = 61 ∨ name = 62 ∨ name = 66 ∨ name = 67 ∨ name = 71 ∨ name = 72 then .any
    else .int
  else if level = 0 ∧ (name = 51 ∨ name = 52) then .four
  else if level = 263 ∧ name = 6 then .structure 12
  else if level = 255 ∧ name = 1 then .structure 4
  else if level = 270 then (if name = 9 then .words else .int)
  else .any

/-- how a number is to be spelled: SO_ERROR as an error, SO_TXREHASH as a constant, SO_PEERPIDFD as a descriptor, IP_LOCAL_PORT_RANGE as
ports, IP_PROTOCOL as a protocol -/
def styleOf (level name : Nat) : Style :=
  if level = 1 ∧ name = 4 then .err
  else if level = 1 ∧ name = 74 then .txrehash
  else if level = 1 ∧ name = 77 then .fd
  else if level = 0 ∧ name = 51 then .ports
  else if level = 0 ∧ name = 52 then .proto
  else .plain

/-- how many of the bytes returned are to be shown: those of the type, or all of them up to the limit of strings -/
def getAmount (max : Nat) (k : Kind) (ulen rlen : Nat) : Nat :=
  match k with
  | .int => if 4 ≤ rlen then 4 else min rlen max
  | .structure n => min rlen n
  | .four => if rlen = 4 then 4 else min rlen max
  | .any => if rlen = 4 then 4 else min rlen max
  | .words => 4 * min (min ulen rlen / 4) max
  | .prog => 0

/-- the types of the options of setsockopt: an integer, a structure that must be given as a whole or with exactly its size, exactly 4
bytes, or anything by its length; the others have theorems of their own -/
inductive SetKind where
  | int | whole (size : Nat) | exact (size : Nat) | any | other
  deriving DecidableEq

def setKind (level name : Nat) : SetKind :=
  if level = 1 then
    if name = 13 then .whole 8
    else if name = 26 ∨ name = 51 then .other
    -- SO_ERROR, SO_PEERCRED and SO_PEERPIDFD cannot be set
    else if name = 4 ∨ name = 17 ∨ name = 77 then .any
    else if getKind 1 name = .int then .int
    else .any
  else if level = 0 ∧ (name = 35 ∨ name = 36) then .whole 8
  else if (level = 0 ∨ level = 41) ∧ (name = 42 ∨ name = 45) then .other
  else if level = 41 ∧ (name = 20 ∨ name = 21 ∨ name = 27 ∨ name = 28) then .whole 20
  else if level = 263 ∧ (name = 5 ∨ name = 13) then .exact 16
  else if level = 263 ∧ (name = 1 ∨ name = 2) then .other
  else if level = 255 ∧ name = 1 then .whole 4
  else if level = 270 then .int
  else if level = 6 ∧ name = 38 then .other
  else .any

/-- how many of the bytes given are to be shown; none if there is only the address -/
def setAmount (max : Nat) (k : SetKind) (len : Nat) : Option Nat :=
  match k with
  | .int => if 4 ≤ len then some 4 else none
  | .whole n => if n ≤ len then some n else none
  | .exact n => if n = len then some n else none
  | .any => some (if len = 4 then 4 else min len max)
  | .other => none

/-- two memories have the same bytes in the first `n` places -/
def Same (n : Nat) (mem mem' : Mem) : Prop := ∀ i, i < n → mem i = mem' i

end Strace.Sockopt
