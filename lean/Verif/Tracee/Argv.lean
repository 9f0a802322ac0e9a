import Verif.Show.Array
/-!
# Arrays of strings that end with NULL: src/execve.c (printargv, printargc)

`mem a` is the word at an address, `none` if it cannot be read.  Strings are shown by their address.
-/
namespace Strace.Tracee
open Strace.Show (truncates)

inductive ATok
  /-- `[` -/
  | opened
  /-- `]` -/
  | closed
  /-- `, ` -/
  | next
  /-- `...` -/
  | more
  /-- the string at an address, or the address -/
  | str (a : Nat)
  /-- an address, NULL if it is 0 -/
  | addr (a : Nat)
  /-- an address as a comment -/
  | comment (a : Nat)
  /-- `/* 5 vars */` or `/* 5 vars, unterminated */` -/
  | count (n : Nat) (unterminated : Bool)
  deriving DecidableEq, Repr

/-- the loop of `printargv`, src/execve.c:31-65.  `w` is the size of a word, `n` an `unsigned int`. -/
def argvLoop (limit : Option Nat) (mem : Nat → Option Nat) (w : Nat) : Nat → Nat → Nat → Nat → Option (List ATok)
  | 0, _, _, _ => none
  | fuel + 1, prev, a, n =>
    match if a < prev then none else mem a with
    | none => some (if n = 0 then [.addr a] else [.next, .more, .comment a, .closed])
    | some word =>
      if word = 0 then some ((if n = 0 then [.opened] else []) ++ [.closed])
      else if truncates limit (n + 1) = true then
        some ((if n = 0 then [.opened] else [.next]) ++ [.more, .closed])
      else
        (argvLoop limit mem w fuel a ((a + w) % 2 ^ 64) ((n + 1) % 2 ^ 32)).map fun r =>
          (if n = 0 then [.opened] else [.next]) ++ .str word :: r

/-- `printargv`, src/execve.c:19-68 -/
def printargv (limit : Option Nat) (verb : Bool) (mem : Nat → Option Nat) (w fuel a : Nat) : Option (List ATok) :=
  if a = 0 ∨ verb = false then some [.addr a] else argvLoop limit mem w fuel 0 a 0

/-- the loop of `printargc`, src/execve.c:82-93: `n`, `addr` and `prev_addr` at the end; `none` inside if nothing more is
printed -/
def argcLoop (mem : Nat → Option Nat) (w : Nat) : Nat → Nat → Nat → Nat → Option (Option (Nat × Nat × Nat))
  | 0, _, _, _ => none
  | fuel + 1, prev, a, n =>
    if a > prev then
      match mem a with
      | none => some (if n = 0 then none else some (n, 0, prev))
      | some word =>
        if word = 0 then some (some (n, a, prev)) else argcLoop mem w fuel a ((a + w) % 2 ^ 64) ((n + 1) % 2 ^ 32)
    else some (some (n, a, prev))

/-- `printargc`, src/execve.c:70-97 -/
def printargc (verb : Bool) (mem : Nat → Option Nat) (w fuel a : Nat) : Option (List ATok) :=
  if a = 0 ∨ verb = false then some [.addr a]
  else
    (argcLoop mem w fuel 0 a 0).map fun r =>
      match r with
      | none => [.addr a]
      | some (n, a', prev) => [.addr a, .count n (decide (a' < prev))]

/-- the environment of `decode_execve`, src/execve.c:110-111 -/
def printenvp (limit : Option Nat) (verb : Bool) (mem : Nat → Option Nat) (w fuel a : Nat) : Option (List ATok) :=
  if limit.isSome = true then printargc verb mem w fuel a else printargv limit verb mem w fuel a

end Strace.Tracee
