import Verif.Prctl.Model
import Verif.Base.Dec

/-!
# Model of resource limits and priorities

The text of a limit, and what getrlimit, setrlimit, prlimit64, getpriority and setpriority show.

Simplifications: resources, kinds of priorities and identifiers are the numbers that they are shown from; texts are lists of
character codes; memory is little-endian. getrusage is modelled in `Inout`.
-/
namespace Strace.Lim

open Strace.Prctl (Mem umoven number)
open Strace.Base (dec)

/-- The styles of `-X`. -/
inductive Style | raw | abbrev_ | verbose
deriving DecidableEq, Repr

/-- The codes of a text. -/
def codes (s : String) : List Nat := s.toList.map Char.toNat

/-- src/resource.c:24-25 and 66-67: the name of the largest number of `w` bytes -/
def infinity (w : Nat) : List Nat := if w = 8 then codes "RLIM64_INFINITY" else codes "RLIM_INFINITY"

/-- src/resource.c:22-31 and 64-73: `str` -/
def str (w lim : Nat) : Option (List Nat) :=
  if lim = 256 ^ w - 1 then some (infinity w)
  else if lim > 1024 ∧ lim % 1024 = 0 then some (dec (lim / 1024) ++ codes "*1024")
  else none

/-- src/resource.c:20-40, `print_rlim64_t` (`w` is 8), and src/resource.c:62-82, `print_rlim32_t` (`w` is 4); src/strace.c:786-793,
`tprints_comment` -/
def text (st : Style) (w lim : Nat) : List Nat :=
  (if str w lim = none ∨ st ≠ .abbrev_ then dec lim else []) ++
  match str w lim with
  | none => []
  | some s =>
    match st with
    | .raw => []
    | .verbose => codes " /* " ++ s ++ codes " */"
    | .abbrev_ => s

/-- A call: arguments, memory when it begins and when it ends, whether it has failed, `-e verbose`, the style, and the length of
`long` for the kernel's interface of the program (`current_klongsize`: 4 for i386, 8 for x86_64 and x32). -/
structure Call where
  arg : Nat → Nat
  before : Mem
  after : Mem
  failed : Bool
  verbose : Bool
  style : Style
  klong : Nat

/-- What is printed. -/
inductive Tok
  /-- a number or its name -/
  | num (v : Nat)
  | int (v : Int)
  /-- the identifier of a process, of a group of processes -/
  | pid (v : Int) | pgid (v : Int)
  /-- the structure with the texts of the two limits -/
  | limits (cur max : List Nat)
  | addr (a : Nat)
deriving DecidableEq, Repr

/-- The conversion to `int`. -/
def int (v : Nat) : Int := if v % 2 ^ 32 < 2 ^ 31 then (v % 2 ^ 32 : Nat) else (v % 2 ^ 32 : Nat) - 2 ^ 32

/-- src/resource.c:43-57, `print_rlimit64` (`w` is 8), and src/resource.c:85-99, `print_rlimit32` (`w` is 4); `err` is whether the call
has ended with an error (src/util.c:1733-1739) -/
def limits (c : Call) (m : Mem) (err : Bool) (a w : Nat) : Tok :=
  if a ≠ 0 ∧ c.verbose = true ∧ err = false then
    match umoven m a (2 * w) with
    | some l => .limits (text c.style w (number (l.take w))) (text c.style w (number (l.drop w)))
    | none => .addr a
  else .addr a

/-- src/resource.c:102-114, `decode_rlimit` -/
def width (c : Call) : Nat := if c.klong = 4 then 4 else 8

/-- src/resource.c:201-215, `priority_print_who` -/
def who (which v : Int) : Tok := if which = 0 then .pid v else if which = 1 then .pgid v else .int v

inductive Sys | getrlimit | setrlimit | prlimit64 | getpriority | setpriority
deriving DecidableEq, Repr

/-- src/resource.c:122-166 and 217-243 -/
def run (s : Sys) (c : Call) : List Tok :=
  match s with
  | .getrlimit => [.num (c.arg 0 % 2 ^ 32), limits c c.after c.failed (c.arg 1) (width c)]
  | .setrlimit => [.num (c.arg 0 % 2 ^ 32), limits c c.before false (c.arg 1) (width c)]
  | .prlimit64 =>
    [.pid (int (c.arg 0)), .num (c.arg 1 % 2 ^ 32), limits c c.before false (c.arg 2) 8, limits c c.after c.failed (c.arg 3) 8]
  | .getpriority => [.num (c.arg 0 % 2 ^ 32), who (int (c.arg 0)) (int (c.arg 1))]
  | .setpriority => [.num (c.arg 0 % 2 ^ 32), who (int (c.arg 0)) (int (c.arg 1)), .int (int (c.arg 2))]

end Strace.Lim
