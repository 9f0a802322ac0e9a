import Verif.Lead.Model
import Verif.Bits.Model
import Verif.Diag.Model
import Verif.StringToUint.Model
/-!
# What is shown of a descriptor besides its number: src/util.c (printfd_pid_with_finfo and what it calls), src/ioctl.c

Texts are lists of character codes.  Security contexts are not part of the model, pids are those of strace's namespace, and
names of tasks (-Y) are not shown.
-/
namespace Strace.Deco
open Strace.Base Strace.Lead Strace.StringToUint

/-! ### Lines of /proc/PID/fdinfo/FD -/

/-- a thing that is looked for: `struct scan_fdinfo`, src/util.c:650-656; `ok` is what the function returns for a value -/
structure Search where
  pfx : List Nat
  ok : List Nat → Bool

/-- getline(3) again and again: the lines, each with its newline if it has one -/
def lines (text : List Nat) : List (List Nat) :=
  match text with
  | [] => []
  | c :: t =>
    if c = 10 then [10] :: lines t
    else
      match lines t with
      | [] => [[c]]
      | l :: ls => (c :: l) :: ls

/-- what one line gives to one search, src/util.c:684-688: the value, if the line has the prefix and the function takes it -/
def value (s : Search) (line : List Nat) : Option (List Nat) :=
  if line.take s.pfx.length = s.pfx ∧ s.pfx ≠ [] ∧ s.ok (line.drop s.pfx.length) = true then some (line.drop s.pfx.length) else none

/-- the inner loop, src/util.c:679-693: the searches with their matches after the line, `none` if it matches nothing -/
def scanLine : List (Search × Option (List Nat)) → List Nat → Option (List (Search × Option (List Nat)))
  | [], _ => none
  | (s, some v) :: r, line => (scanLine r line).map ((s, some v) :: ·)
  | (s, none) :: r, line =>
    match value s line with
    | some v => some ((s, some v) :: r)
    | none => (scanLine r line).map ((s, none) :: ·)

/-- the outer loop, src/util.c:678-694, with the number of matches -/
def scanLoop : Nat → List (Search × Option (List Nat)) → List (List Nat) → List (Search × Option (List Nat))
  | _, ss, [] => ss
  | n, ss, l :: ls =>
    if n < ss.length then
      match scanLine ss l with
      | some ss' => scanLoop (n + 1) ss' ls
      | none => scanLoop n ss ls
    else ss

/-- `scan_fdinfo_lines`, src/util.c:658-700: the values found, in the order of the searches; `none` is a file that cannot be read -/
def scan (text : Option (List Nat)) (ss : List Search) : List (Option (List Nat)) :=
  match text with
  | none => ss.map fun _ => none
  | some t => (scanLoop 0 (ss.map fun s => (s, none)) (lines t)).map (·.2)

/-- `scan_fdinfo`, src/util.c:702-717 -/
def scan1 (text : Option (List Nat)) (s : Search) : Option (List Nat) := ((scan text [s]).headD none)

/-- `string_to_uint_ex(value, NULL, INT_MAX, "\n")`, src/util.c:732, 812, 899, 907; `none` is -1 -/
def number (v : List Nat) : Option Nat :=
  match stringToUintEx v (2 ^ 31 - 1) (some [10]) with
  | none => none
  | some (n, _) => some n.toNat

/-! ### What strace looks at -/

/-- the kinds of -e decode-fds: `decode_fd_set` -/
structure Kinds where
  sock : Bool
  dev : Bool
  event : Bool
  pid : Bool
  sig : Bool
  path : Bool
  deriving DecidableEq

/-- `decode_fd_set` is empty, src/util.c:1015 -/
def Kinds.none (k : Kinds) : Bool := !(k.sock || k.dev || k.event || k.pid || k.sig || k.path)

/-- a device as stat(2) has it -/
structure Dev where
  blk : Bool
  major : Nat
  minor : Nat
  deriving DecidableEq

/-- files as strace finds them: the path of a descriptor and whether it is deleted (`getfdpath_pid`, C67), its fdinfo, the name
of its protocol (`getxattr`), what kind of device stat(2) finds at a path (`none`: none or no file), and the details of a socket
from its inode and the name of the protocol (`get_sockaddr_by_inode`, C92) -/
structure World where
  link : Nat → Nat → Option (List Nat × Bool)
  fdinfo : Nat → Nat → Option (List Nat)
  proto : Nat → Nat → Option (List Nat)
  stat : List Nat → Option Dev
  details : Nat → Option (List Nat) → Option (List Nat)

/-- what is shown -/
inductive Deco
  | nothing
  /-- a text between angle brackets, as it is -/
  | plain (t : List Nat)
  | dev (path : List Nat) (d : Dev) (tty : Option Nat)
  | event (count : List Nat) (id sem : Option Nat)
  | pid (p : Nat)
  | sig (mask : List Nat)
  | path (p : List Nat) (deleted : Bool)
  deriving DecidableEq

/-! ### The decoders -/

/-- `printsocket`, src/util.c:635-646; `pid` is that of the caller, `tcp->pid` -/
def socketOf (w : World) (pid fd : Nat) (path : List Nat) : Option Deco :=
  if Diag.inodeOfPath path = 0 then none
  else some (.plain ((w.details (Diag.inodeOfPath path) (w.proto pid fd)).getD path))

/-- `is_ptmx`, src/util.c:719-725 -/
def isPtmx (d : Dev) : Bool := !d.blk && decide (d.major = 5) && decide (d.minor = 2)

/-- the search for "tty-index:\t", src/util.c:768 -/
def ttySearch : Search := ⟨[116, 116, 121, 45, 105, 110, 100, 101, 120, 58, 9], fun _ => true⟩

/-- `struct finfo`, src/defs.h:675-689 -/
structure Finfo where
  path : List Nat
  dev : Option Dev
  tty : Option Nat
  deleted : Bool
  deriving DecidableEq

/-- `get_finfo_for_dev`, src/util.c:736-776 -/
def finfoFor (w : World) (pid fd : Nat) (path : List Nat) : Finfo :=
  if path.head? ≠ some 47 then ⟨path, none, none, false⟩
  else
    match w.stat path with
    | none => ⟨path, none, none, false⟩
    | some d => ⟨path, some d, if isPtmx d = true then (scan1 (w.fdinfo pid fd) ttySearch).bind number else none, false⟩

/-- `printdev`, src/util.c:778-806 -/
def devOf (w : World) (pid fd : Nat) (path : List Nat) (fi : Option Finfo) : Option Deco :=
  match (fi.getD (finfoFor w pid fd path)).dev with
  | some d => some (.dev (fi.getD (finfoFor w pid fd path)).path d
      (if isPtmx d = true then (fi.getD (finfoFor w pid fd path)).tty else none))
  | none => none

/-- "Pid:\t", src/util.c:819 -/
def pidSearch : Search := ⟨[80, 105, 100, 58, 9], fun _ => true⟩

/-- "pidfd:", src/util.c:830 -/
def pidfsPfx : List Nat := [112, 105, 100, 102, 100, 58]

/-- "anon_inode:[pidfd]", src/util.c:831 -/
def pidfdPath : List Nat := [97, 110, 111, 110, 95, 105, 110, 111, 100, 101, 58, 91, 112, 105, 100, 102, 100, 93]

/-- `pidfd_get_pid`, src/util.c:816-825 -/
def pidfdPid (w : World) (pid fd : Nat) : Option Nat := (scan1 (w.fdinfo pid fd) pidSearch).bind number

/-- `printpidfd`, src/util.c:827-852 -/
def pidfdOf (w : World) (pid fd : Nat) (path : List Nat) : Option Deco :=
  if path.take pidfsPfx.length ≠ pidfsPfx ∧ path ≠ pidfdPath then none
  else
    match pidfdPid w pid fd with
    | some p => if p > 0 then some (.pid p) else some (.plain path)
    | none => some (.plain path)

/-- a hexadecimal digit -/
def hexDigit (c : Nat) : Option Nat :=
  if 48 ≤ c ∧ c ≤ 57 then some (c - 48)
  else if 97 ≤ c ∧ c ≤ 102 then some (c - 87)
  else if 65 ≤ c ∧ c ≤ 70 then some (c - 55)
  else none

/-- `sscanf("%02hhx")` (libc contract) of a text that begins with neither white space nor a sign, src/util.c:868 -/
def hexByte (a b : Nat) : Option Nat :=
  match hexDigit a, hexDigit b with
  | some x, some y => some (16 * x + y)
  | some x, none => some x
  | none, _ => none

/-- the loop, src/util.c:866-873, on a little-endian machine: the first two digits are the last byte -/
def maskBytes : List Nat → Option (List Nat)
  | a :: b :: t =>
    match hexByte a b, maskBytes t with
    | some x, some r => some (r ++ [x])
    | _, _ => none
  | _ => some []

/-- "sigmask:\t", src/util.c:886, with `print_fdinfo_sigmask`, src/util.c:854-880 -/
def maskSearch : Search := ⟨[115, 105, 103, 109, 97, 115, 107, 58, 9], fun v => (maskBytes v).isSome⟩

/-- "anon_inode:[signalfd]", src/util.c:885 -/
def signalfdPath : List Nat := [97, 110, 111, 110, 95, 105, 110, 111, 100, 101, 58, 91, 115, 105, 103, 110, 97, 108, 102, 100, 93]

/-- `printsignalfd`, src/util.c:882-893 -/
def signalfdOf (w : World) (pid fd : Nat) (path : List Nat) : Option Deco :=
  if path ≠ signalfdPath then none
  else
    match (scan1 (w.fdinfo pid fd) maskSearch).bind maskBytes with
    | some m => some (.sig m)
    | none => none

/-- `parse_fdinfo_efd_counter`, src/util.c:911-924: blanks and tabs before it are skipped, it ends at a newline -/
def counter (v : List Nat) : Option (List Nat) :=
  let t := (v.dropWhile fun c => decide (c = 32 ∨ c = 9)).takeWhile fun c => decide (c ≠ 10)
  if t = [] then none else some t

/-- "eventfd-count:", src/util.c:931 -/
def countSearch : Search := ⟨[101, 118, 101, 110, 116, 102, 100, 45, 99, 111, 117, 110, 116, 58], fun _ => true⟩

/-- "eventfd-id:", src/util.c:933 -/
def idSearch : Search := ⟨[101, 118, 101, 110, 116, 102, 100, 45, 105, 100, 58], fun _ => true⟩

/-- "eventfd-semaphore:", src/util.c:935 -/
def semSearch : Search := ⟨[101, 118, 101, 110, 116, 102, 100, 45, 115, 101, 109, 97, 112, 104, 111, 114, 101, 58], fun _ => true⟩

/-- "anon_inode:[eventfd]", src/util.c:929 -/
def eventfdPath : List Nat := [97, 110, 111, 110, 95, 105, 110, 111, 100, 101, 58, 91, 101, 118, 101, 110, 116, 102, 100, 93]

/-- the fields shown of an eventfd, src/util.c:963-991: an identifier only after a counter, `semaphore` only after an identifier -/
def eventFields (path : List Nat) (count : Option (List Nat)) (id sem : Option Nat) : Deco :=
  match count with
  | some c => .event c id (if id.isSome then sem else none)
  | none => .plain path

/-- `printeventfd`, src/util.c:926-994 -/
def eventfdOf (w : World) (pid fd : Nat) (path : List Nat) : Option Deco :=
  if path ≠ eventfdPath then none
  else
    match scan (w.fdinfo pid fd) [countSearch, idSearch, semSearch] with
    | [c, i, s] => some (eventFields path (c.bind counter) (i.bind number) (s.bind number))
    | _ => none

/-- the choice, src/util.c:1018-1036: `tcp` is the caller, `pid` whose descriptor it is -/
def choose (w : World) (k : Kinds) (tcp pid fd : Nat) (path : List Nat) (deleted : Bool) (fi : Option Finfo) : Deco :=
  match (if k.sock then socketOf w tcp fd path else none) with
  | some d => d
  | none =>
    match (if k.dev then devOf w tcp fd path fi else none) with
    | some d => d
    | none =>
      match (if k.event then eventfdOf w pid fd path else none) with
      | some d => d
      | none =>
        match (if k.pid then pidfdOf w pid fd path else none) with
        | some d => d
        | none =>
          match (if k.sig then signalfdOf w pid fd path else none) with
          | some d => d
          | none => if k.path then .path path deleted else .nothing

/-- `getfdpath_pid`, src/pathtrace.c:153-164: no path for a negative descriptor -/
def linkOf (w : World) (pid : Nat) (fd : Int) : Option (List Nat × Bool) :=
  if fd < 0 then none else w.link pid fd.toNat

/-- `printfd_pid_with_finfo`, src/util.c:1008-1040, without the number; `pid` is 0 when it is not known -/
def decorate (w : World) (k : Kinds) (tcp pid : Nat) (fd : Int) (fi : Option Finfo) : Deco :=
  if pid > 0 ∧ k.none = false then
    match fi with
    | some f => choose w k tcp pid fd.toNat f.path f.deleted fi
    | none =>
      match linkOf w pid fd with
      | none => .nothing
      | some (p, del) => choose w k tcp pid fd.toNat p del none
  else .nothing

/-- `printfd`, src/defs.h:1270-1274 -/
def printfd (w : World) (k : Kinds) (tcp : Nat) (fd : Int) : Deco := decorate w k tcp tcp fd none

/-- the descriptor of ioctl, src/ioctl.c:509-520; `overlaps` is `ioctl_command_overlaps`, src/ioctl.c:497-501 -/
def ioctlFd (w : World) (k : Kinds) (overlaps : Bool) (tcp : Nat) (fd : Int) : Deco :=
  if overlaps = true then
    match linkOf w tcp fd with
    | some (p, del) => decorate w k tcp tcp fd (some { finfoFor w tcp fd.toNat p with deleted := del })
    | none => printfd w k tcp fd
  else printfd w k tcp fd

/-- the target descriptor of pidfd_getfd, src/pidfd_getfd.c:24-28 -/
def getfdTarget (w : World) (k : Kinds) (tcp pidfd : Nat) (target : Int) : Deco :=
  match pidfdPid w tcp pidfd with
  | some p => if p > 0 then decorate w k tcp p target none else .nothing
  | none => .nothing

/-! ### The texts -/

/-- `print_quoted_string_ex(…, QUOTE_OMIT_LEADING_TRAILING_QUOTES, "<>")`, src/util.c:792 and 1000 -/
def quoted (x : Quote.XStyle) (p : List Nat) : List Nat := (Quote.stringQuote p 0 ⟨false, true, false, false, false, x⟩ [60, 62]).1

/-- " @/dev/pts/", src/util.c:800 -/
def ptsText : Option Nat → List Nat
  | none => []
  | some n => [32, 64, 47, 100, 101, 118, 47, 112, 116, 115, 47] ++ dec n

/-- "block" or "char", src/util.c:796-798 -/
def devText (d : Dev) : List Nat :=
  (if d.blk then [98, 108, 111, 99, 107] else [99, 104, 97, 114]) ++ [32] ++ dec d.major ++ [58] ++ dec d.minor

/-- a field of an eventfd that may be absent -/
def fieldText (name : List Nat) : Option Nat → List Nat
  | none => []
  | some n => [44, 32] ++ name ++ [61] ++ dec n

/-- the words of a mask -/
def words : List Nat → List Nat
  | a :: b :: c :: d :: t => (a + 256 * b + 65536 * c + 16777216 * d) :: words t
  | _ => []

/-- "signalfd:", src/util.c:876 -/
def sigPfx : List Nat := [115, 105, 103, 110, 97, 108, 102, 100, 58]

/-- the text of a decoration: src/util.c:788-803, 838-846, 875-877, 963-991, 996-1006; `none` is a signal mask that does not fit
its buffer (C39) -/
def render (n : Bits.Names) (st : Bits.Style) (x : Quote.XStyle) : Deco → Option (List Nat)
  | .nothing => some []
  | .plain t => some ([60] ++ t ++ [62])
  | .dev p d tty => some ([60] ++ quoted x p ++ [60] ++ devText d ++ ptsText tty ++ [62, 62])
  | .event c id sem =>
    some ([60, 123] ++ [101, 118, 101, 110, 116, 102, 100, 45, 99, 111, 117, 110, 116, 61] ++
      (if c.head? ≠ some 48 then [48, 120] else []) ++ c ++
      fieldText [101, 118, 101, 110, 116, 102, 100, 45, 105, 100] id ++
      fieldText [101, 118, 101, 110, 116, 102, 100, 45, 115, 101, 109, 97, 112, 104, 111, 114, 101] sem ++ [125, 62])
  | .pid p => some ([60] ++ [112, 105, 100, 58] ++ dec p ++ [62])
  | .sig m => (Bits.sprintsigmask 8 n st sigPfx (words m) m.length).map fun t => [60] ++ t ++ [62]
  | .path p del => some ([60] ++ quoted x p ++ [62] ++ (if del then [40, 100, 101, 108, 101, 116, 101, 100, 41] else []))

end Strace.Deco
