import Verif.Unwind.Model
/-!
# What stack traces are to be

The frames and what is known about an address are as given by the libraries.
-/
namespace Strace.Unwind
open Strace.Base Strace.Lead Strace.Filter

/-- what is known about an address, in words: the file, the function with the distance from its beginning, the address in the file, and the
line of the source -/
def told (i : Info) : List Nat :=
  i.bin.getD (codes "(null)") ++ codes "(" ++
    (match i.sym with
     | some (c :: s) => c :: s ++ codes "+0x" ++ hex i.off
     | _ => []) ++
    codes ") [0x" ++ hex i.trueOff ++ codes "]" ++
    (match i.sym, i.src with
     | some (_ :: _), some f => codes " " ++ f ++ codes ":" ++ decI i.line
     | _, _ => [])

/-- a line of a stack trace -/
def frameLine : Entry → List Nat
  | .call i => codes " > " ++ told i ++ [10]
  | .error m o => codes " > " ++ m ++ (if o = 0 then [] else codes " [0x" ++ hex o ++ codes "]") ++ [10]

/-- a file or a function is known: an unwinder never reports less -/
def Known : Entry → Prop
  | .call i => i.bin ≠ none
  | .error _ _ => True

/-- no function has an empty name -/
def Named : Entry → Prop
  | .call i => i.sym ≠ some []
  | .error _ _ => True

/-! ### Walking a stack -/

/-- the addresses of a stack up to the first that is not known -/
def addrs : List (Option Nat × Bool) → List Nat
  | (some pc, true) :: r => pc :: addrs r
  | (some pc, false) :: r => (if pc = 0 then 2 ^ 64 - 1 else pc - 1) :: addrs r
  | _ => []

/-- whether all addresses are known -/
def allKnown (l : List (Option Nat × Bool)) : Bool := l.all fun f => f.1.isSome

/-- what is to be shown of a stack, by what is known about addresses now: at most `limit` frames, and a note if there are more, or if the
stack could not be followed to its end -/
def shown (look : Nat → Option Info) (limit : Nat) (s : Stack) : List Entry :=
  (((addrs s.frames).take limit).filterMap look).map .call ++
    (if limit < (addrs s.frames).length then [.error (codes "too many stack frames") 0]
     else if s.fails || !allKnown s.frames then [.error s.msg 0] else [])

/-- the generation after a history -/
def gens (gen : Nat) : List Op → List (Nat × Stack)
  | [] => []
  | .changed :: r => gens (gen + 1) r
  | .walked s :: r => (gen, s) :: gens gen r

/-! ### Lines and stacks -/

/-- the stack of a call: the one on entering if that is taken, otherwise the one on leaving -/
def stackOf (cap : Option (List Entry)) (now : List Entry) : List Item := (cap.getD now).map fun e => .frame (frameLine e)

/-- what is to be written: after the line of a call the stack of the call, after the line of a signal the stack when it came.  `cur` is the
call that the process is in, with the stack that was taken on entering it. -/
def expected (tellExit : Bool) (cur : Option (Nat × Option (List Entry))) : List Ev → List Item
  | [] => []
  | .enter n onEnter st other :: r =>
    (if other = some true then [.mode] else []) ++ expected tellExit (n.map fun k => (k, if onEnter then some st else none)) r
  | .leave _ st :: r => (cur.map fun k => .call k.1 :: stackOf k.2 st).getD [] ++ expected tellExit none r
  | .signal n st :: r => .sig n :: stackOf none st ++ expected tellExit cur r
  | .exiting :: r => (cur.map fun k => .call k.1 :: stackOf k.2 []).getD [] ++ expected tellExit none r
  | .exited :: r => (cur.map fun k => .call k.1 :: stackOf k.2 []).getD [] ++ (if tellExit then [.ended] else []) ++ expected tellExit none r

/-- a history of a process as the kernel makes it: calls are entered and left in turn, signals come between calls, and a process that is about
to exit does nothing else -/
def History : Bool → List Ev → Prop
  | _, [] => True
  | false, .enter _ _ _ _ :: r => History true r
  | false, .signal _ _ :: r => History false r
  | true, .leave _ _ :: r => History false r
  | _, [.exiting, .exited] => True
  | _, [.exited] => True
  | _, _ => False

/-- the results of calls can be read -/
def Readable : Ev → Prop
  | .leave f _ => f ≠ none
  | _ => True

/-- the stacks are such as the unwinder gives, and not empty where they are taken on entering -/
def Stacks : Ev → Prop
  | .enter _ onEnter st _ => (onEnter = true → st ≠ []) ∧ ∀ e ∈ st, Known e ∧ Named e
  | .leave _ st => ∀ e ∈ st, Known e
  | .signal _ st => ∀ e ∈ st, Known e
  | _ => True

end Strace.Unwind
