import Verif.Deco.Model
import Verif.Quote.Spec
/-!
# What a descriptor refers to, how the kernel tells it, and what a user wants to see

The link /proc/PID/fd/FD and the file /proc/PID/fdinfo/FD are as Linux writes them (proc(5), Documentation/filesystems/proc.rst):
an eventfd has the lines `eventfd-count: %16llx`, `eventfd-id: %d` (since Linux 5.2) and `eventfd-semaphore: %d` (since 6.5), a
pidfd has `Pid:\t%d`, a signalfd `sigmask:\t%016llx`, and a master of pseudo-terminals `tty-index:\t%d`.  They come in any order
and among other lines.
-/
namespace Strace.Deco
open Strace.Base Strace.Lead

/-- the codes of a text -/
def txt (s : String) : List Nat := s.toList.map Char.toNat

/-- a file of lines -/
def fileText (ls : List (List Nat)) : List Nat := (ls.map (· ++ [10])).flatten

/-- the file has one line that begins with `pfx`, and it goes on with `v`; or (`none`) it has no such line -/
def Tells (ls : List (List Nat)) (pfx : List Nat) : Option (List Nat) → Prop
  | some v => pfx ++ v ∈ ls ∧ ∀ l ∈ ls, pfx <+: l → l = pfx ++ v
  | none => ∀ l ∈ ls, ¬ pfx <+: l

/-- what a descriptor refers to -/
inductive Obj
  /-- a file that is not a device -/
  | file (path : List Nat) (deleted : Bool)
  /-- a device; `tty` is the number of the pseudo-terminal of a master, and of nothing else -/
  | dev (path : List Nat) (deleted : Bool) (d : Dev) (tty : Option Nat)
  | sock (inode : Nat)
  | event (count : Nat) (id sem : Option Nat)
  /-- `inode` is that of a pidfd of Linux 6.9; the pid is -1 after the process has been waited for, and 0 if it is in another
  namespace -/
  | pidfd (inode : Option Nat) (pid : Int)
  | sigfd (mask : Nat)

/-- the text of the link for what is not a file -/
def linkText : Obj → List Nat
  | .file p _ => p
  | .dev p _ _ _ => p
  | .sock i => txt "socket:[" ++ dec i ++ txt "]"
  | .event _ _ _ => txt "anon_inode:[eventfd]"
  | .pidfd (some i) _ => txt "pidfd:[" ++ dec i ++ txt "]"
  | .pidfd none _ => txt "anon_inode:[pidfd]"
  | .sigfd _ => txt "anon_inode:[signalfd]"

/-- whether the file is deleted -/
def Obj.deleted : Obj → Bool
  | .file _ b => b
  | .dev _ b _ _ => b
  | _ => false

/-- the master of pseudo-terminals, /dev/ptmx, is the character device 5:2 -/
def Ptmx (d : Dev) : Prop := d.blk = false ∧ d.major = 5 ∧ d.minor = 2

/-- what the lines of fdinfo tell about it -/
def Info (ls : List (List Nat)) : Obj → Prop
  | .file _ _ => True
  | .dev _ _ _ tty => Tells ls (txt "tty-index:\t") (tty.map dec)
  | .sock _ => True
  | .event c id sem => (∃ n, Tells ls (txt "eventfd-count:") (some (List.replicate n 32 ++ hex c))) ∧
      Tells ls (txt "eventfd-id:") (id.map fun n => 32 :: dec n) ∧ Tells ls (txt "eventfd-semaphore:") (sem.map fun n => 32 :: dec n)
  | .pidfd _ p => Tells ls (txt "Pid:\t") (some (decI p))
  | .sigfd m => Tells ls (txt "sigmask:\t") (some (hexPad 16 m))

/-- numbers are those that can occur -/
def Obj.Ok : Obj → Prop
  | .file p _ => p.head? = some 47
  | .dev p _ d tty => p.head? = some 47 ∧ (∀ n, tty = some n → Ptmx d ∧ n < 2 ^ 31)
  | .sock i => 0 < i ∧ i < 2 ^ 64
  | .event _ id sem => (∀ n, id = some n → n < 2 ^ 31) ∧ (∀ n, sem = some n → n < 2 ^ 31 ∧ id ≠ none)
  | .pidfd _ p => -1 ≤ p ∧ p < 2 ^ 31
  | .sigfd m => m < 2 ^ 64

/-- what stat(2) finds by the name of a file is what the descriptor refers to -/
def NameHolds (w : World) : Obj → Prop
  | .file p _ => w.stat p = none
  | .dev p _ d _ => w.stat p = some d
  | _ => True

/-- descriptor `fd` of process `pid` refers to `o`, and the kernel tells it -/
def Has (w : World) (pid fd : Nat) (o : Obj) : Prop :=
  o.Ok ∧ w.link pid fd = some (linkText o, o.deleted) ∧ NameHolds w o ∧
    ∃ ls : List (List Nat), (∀ l ∈ ls, 10 ∉ l) ∧ w.fdinfo pid fd = some (fileText ls) ∧ Info ls o

/-- little-endian bytes of a mask -/
def bytes8 (m : Nat) : List Nat := (List.range 8).map fun i => m / 256 ^ i % 256

/-- what is to be seen of it with these kinds chosen; `det` is what is known of a socket -/
def wanted (k : Kinds) (det : Option (List Nat)) (o : Obj) : Deco :=
  let asPath := if k.path then Deco.path (linkText o) o.deleted else .nothing
  match o with
  | .file _ _ => asPath
  | .dev p _ d tty => if k.dev then .dev p d tty else asPath
  | .sock _ => if k.sock then .plain (det.getD (linkText o)) else asPath
  | .event c id sem => if k.event then .event (hex c) id sem else asPath
  | .pidfd _ p => if k.pid then (if 0 < p then .pid p.toNat else .plain (linkText o)) else asPath
  | .sigfd m => if k.sig then .sig (bytes8 m) else asPath

/-- what is known of a socket, when the name of its protocol is known -/
def known (w : World) (pid fd : Nat) : Obj → Option (List Nat)
  | .sock i => w.details i (w.proto pid fd)
  | _ => none

/-! ### Reading -/

/-- up to the next angle bracket -/
def upToAngle (l : List Nat) : List Nat := l.takeWhile fun c => decide (c ≠ 60 ∧ c ≠ 62)

/-- decode a path -/
def unquote (l : List Nat) : List Nat := ((Quote.decodeLit false (34 :: l ++ [34])).getD ([], [])).1

def digitsOf (l : List Nat) : List Nat := l.takeWhile fun c => decide (48 ≤ c ∧ c ≤ 57)

/-- `block 8:0` or `char 5:2 @/dev/pts/7` -/
def readDev (l : List Nat) : Dev × Option Nat :=
  let kind := l.takeWhile fun c => decide (c ≠ 32)
  let ma := digitsOf (l.drop (kind.length + 1))
  let rest := l.drop (kind.length + 1 + ma.length + 1)
  let mi := digitsOf rest
  let more := rest.drop mi.length
  (⟨decide (kind = txt "block"), readDec ma, readDec mi⟩,
   if more.head? = some 32 then some (readDec (digitsOf (more.drop (txt " @/dev/pts/").length))) else none)

/-- a file, a device or neither -/
inductive Seen
  | file (path : List Nat) (deleted : Bool)
  | dev (path : List Nat) (d : Dev) (tty : Option Nat)
  deriving DecidableEq

/-- what the part before and the part after the next angle bracket say -/
def seenOf (body rest : List Nat) : Seen :=
  if rest.head? = some 60 then .dev (unquote body) (readDev rest.tail).1 (readDev rest.tail).2
  else .file (unquote body) (decide (rest.tail = txt "(deleted)"))

/-- read the text behind the number of a descriptor -/
def readSeen (l : List Nat) : Seen := seenOf (upToAngle l.tail) (l.drop (1 + (upToAngle l.tail).length))

/-- a hexadecimal number, with 0x in front of it unless it is 0 -/
def readCount (l : List Nat) : Nat := if [48, 120] <+: l then readHex (l.drop 2) else readHex l
where
  /-- hexadecimal digits -/
  readHex (l : List Nat) : Nat := l.foldl (fun a c => a * 16 + Quote.hexDigitVal c) 0

/-- a decimal number after `name`, if that comes first, and the rest -/
def optField (name l : List Nat) : Option Nat × List Nat :=
  if name <+: l then (some (readDec (digitsOf (l.drop name.length))), (l.drop name.length).drop (digitsOf (l.drop name.length)).length)
  else (none, l)

/-- up to a comma or a brace -/
def upToSep (l : List Nat) : List Nat := l.takeWhile fun c => decide (c ≠ 44 ∧ c ≠ 125)

/-- what is after the counter -/
def readIdSem (l : List Nat) : Option Nat × Option Nat :=
  ((optField (txt ", eventfd-id=") l).1, (optField (txt ", eventfd-semaphore=") (optField (txt ", eventfd-id=") l).2).1)

/-- `<{eventfd-count=0x1f, eventfd-id=3, eventfd-semaphore=0}>` -/
def readEvent (l : List Nat) : Nat × Option Nat × Option Nat :=
  let l1 := l.drop (txt "<{eventfd-count=").length
  (readCount (upToSep l1), readIdSem (l1.drop (upToSep l1).length))

end Strace.Deco
