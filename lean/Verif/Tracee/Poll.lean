import Verif.Base.Dec
import Verif.Show.Array
import Verif.Show.Dump
/-!
# The result text of poll: src/poll.c (decode_poll_exiting)

The text is built in a static buffer of 1024 bytes.  A write that does not fit, with the NUL that stpcpy and xappendstr
write, is the outcome `none`.
-/
namespace Strace.Tracee
open Strace.Base Strace.Show

/-- an element of the array: `fd` and `revents` as an unsigned short -/
structure Pfd where
  fd : Int
  revents : Nat
  deriving DecidableEq, Repr

/-- `%d` (libc contract) -/
def intText (i : Int) : List Char :=
  if i < 0 then '-' :: (dec i.natAbs).map Char.ofNat else (dec i.natAbs).map Char.ofNat

/-- `%#lx` of a number that is not zero (libc contract) -/
def hexText (n : Nat) : List Char := '0' :: 'x' :: hexNum n

/-- `*outptr++ = c` in the buffer `outstr`, src/poll.c:60 -/
def put1 (out : List Char) (c : Char) : Option (List Char) := if out.length < 1024 then some (out ++ [c]) else none

/-- `stpcpy` (no check) and `xappendstr` (src/xstring.h:107-113, a fatal error) in the buffer `outstr`, src/poll.c:60:
room is needed for the text and a NUL -/
def copy (out t : List Char) : Option (List Char) :=
  if out.length + t.length < 1024 then some (out ++ t) else none

/-- src/poll.c:79-82 and 88-91: `[` in front of the first item, `, ` in front of the others -/
def sepOrOpen (out : List Char) : Option (List Char) :=
  if out = [] then put1 out '[' else copy out ", ".toList

/-- `fdstr`, src/poll.c:98-100, in a buffer of `sizeof("{fd=%d, revents=") + sizeof(int) * 3` bytes -/
def fdText (fd : Int) : Option (List Char) :=
  if ("{fd=".toList ++ intText fd ++ ", revents=".toList).length < 17 + 4 * 3 then
    some ("{fd=".toList ++ intText fd ++ ", revents=".toList)
  else none

/-- src/poll.c:98-113, an item that is not cut by the limit: the text, and whether the loop goes on.  `flags` is
`sprintflags("", pollflags, revents)`. -/
def pollItem (flags : Nat → List Char) (e : Pfd) (out : List Char) : Option (List Char × Bool) :=
  match fdText e.fd with
  | none => none
  | some f =>
    if out.length + f.length + (flags e.revents).length + 1 ≥ 1024 - (2 + 2 * 8 + 9) then
      (copy out "...".toList).map fun o => (o, false)
    else
      match copy out f with
      | none => none
      | some o1 =>
        match copy o1 (flags e.revents) with
        | none => none
        | some o2 => (put1 o2 '}').map fun o => (o, true)

/-- the loop, src/poll.c:77-114.  `mem` reads an element; `limit` is `max_strlen` if abbreviating. -/
def pollLoop (limit : Option Nat) (flags : Nat → List Char) (mem : Nat → Option Pfd) (stop : Nat) :
    Nat → Nat → Nat → List Char → Option (List Char)
  | 0, _, _, _ => none
  | fuel + 1, cur, printed, out =>
    if cur < stop then
      match mem cur with
      | none => (sepOrOpen out).bind fun o => copy o (hexText cur)
      | some e =>
        if e.revents = 0 then pollLoop limit flags mem stop fuel ((cur + 8) % 2 ^ 64) printed out
        else
          match sepOrOpen out with
          | none => none
          | some o =>
            if truncates limit (printed + 1) = true then copy o "...".toList
            else
              match pollItem flags e o with
              | none => none
              | some (o', goesOn) =>
                if goesOn = true then pollLoop limit flags mem stop fuel ((cur + 8) % 2 ^ 64) (printed + 1) o'
                else some o'
    else some out

/-- src/poll.c:116-119: the closing bracket and NUL -/
def pollClose (out : List Char) : Option (List Char) :=
  if out ≠ [] then (put1 out ']').bind fun o => if o.length < 1024 then some o else none
  else some out

/-- src/poll.c:120-129: the time left; `left` is `sprint_ts(tcp, pts)` if `pts` is not NULL -/
def pollLeft (left : Option (List Char)) (out : List Char) : Option (List Char) :=
  match left with
  | none => some out
  | some str =>
    if out.length + 8 + str.length < 1024 then
      (copy out (if out = [] then "left ".toList else ", left ".toList)).bind fun o => copy o str
    else copy out ", ...".toList

/-- what is shown after the result -/
inductive Aux
  | nothing
  | text (t : List Char)
  deriving DecidableEq, Repr

/-- `decode_poll_exiting`, src/poll.c:49-137, for a call that did not fail; `rval` is its result, `verb` is `verbose(tcp)` -/
def pollExit (limit : Option Nat) (flags : Nat → List Char) (mem : Nat → Option Pfd) (verb : Bool) (start nfds rval : Nat)
    (left : Option (List Char)) : Option Aux :=
  let size := 8 * nfds % 2 ^ 64
  let stop := (start + size) % 2 ^ 64
  if rval = 0 then some (.text "Timeout".toList)
  else if verb = false ∨ start = 0 ∨ nfds = 0 ∨ size / 8 ≠ nfds ∨ stop < start then some .nothing
  else
    match (pollLoop limit flags mem stop (nfds + 1) start 0 []).bind fun o => (pollClose o).bind (pollLeft left) with
    | none => none
    | some out => some (if out = [] then .nothing else .text out)

end Strace.Tracee
