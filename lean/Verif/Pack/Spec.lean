import Verif.Xlat.Model
import Verif.Pack.Model
/-
How a reader gets the word back from what is printed: leave out comments (they may nest), and evaluate
the rest as an expression of C over unsigned 64-bit numbers:

  expr := term | term "|" expr        term := atom | atom "<<" atom | macro "(" atom ", " atom ")"

where an atom is a number or the name of a constant.
-/
namespace Strace.Pack
open Strace.Xlat

/-- leave out comments; `d` is the number of comments around -/
def strip : Nat → List Tok → List Tok
  | _, [] => []
  | d, .p .open_ :: l => strip (d + 1) l
  | d, .p .close :: l => strip (d - 1) l
  | d, .p (.comment _) :: l => strip d l
  | 0, t :: l => t :: strip 0 l
  | d + 1, _ :: l => strip (d + 1) l

/-- a number or a constant -/
def atom (names : String → Option (BitVec 64)) : Tok → Option (BitVec 64)
  | .p (.num v) => some v
  | .p (.name s) => names s
  | _ => none

/-- the macros of linux/quota.h, linux/ioprio.h and glibc's sys/sysmacros.h -/
def macroVal (f : String) (a b : BitVec 64) : Option (BitVec 64) :=
  if f = "QCMD" then some ((a <<< 8) ||| (b &&& 0xff#64))
  else if f = "IOPRIO_PRIO_VALUE" then some ((a <<< 13) ||| b)
  else if f = "makedev" then
    some (((a &&& 0xfff#64) <<< 8) ||| ((a &&& 0xfffff000#64) <<< 32) |||
      (b &&& 0xff#64) ||| ((b &&& 0xffffff00#64) <<< 12))
  else none

/-- the value of a term -/
def term (names : String → Option (BitVec 64)) : List Tok → Option (BitVec 64)
  | [a] => atom names a
  | [a, .shl, b] => do
    let x ← atom names a
    let k ← atom names b
    some (x <<< k.toNat)
  | [.call f, a, .comma, b, .endc] => do
    let x ← atom names a
    let y ← atom names b
    macroVal f x y
  | _ => none

/-- the value of an expression; `cur` is the beginning of the current term -/
def evalFrom (names : String → Option (BitVec 64)) (cur : List Tok) : List Tok → Option (BitVec 64)
  | [] => term names cur
  | .p .bar :: l => do
    let x ← term names cur
    let y ← evalFrom names [] l
    some (x ||| y)
  | t :: l => evalFrom names (cur ++ [t]) l

/-- the value a reader gets from the text -/
def valueOf (names : String → Option (BitVec 64)) (l : List Tok) : Option (BitVec 64) :=
  evalFrom names [] (strip 0 l)

/-- the tables give the constants their names -/
def Names (names : String → Option (BitVec 64)) (ts : List Table) : Prop :=
  ∀ t ∈ ts, ∀ e ∈ t.data, ∀ s, e.str = some s → names s = some e.val

/-- the word a wait status stands for -/
def condWord : Cond → BitVec 32
  | .stopped sig x80 => ((sig ||| if x80 = true then 0x80#32 else 0#32) <<< 8) ||| 0x7f#32
  | .signaled sig core => sig ||| if core = true then 0x80#32 else 0#32
  | .exited code => code <<< 8
  | .continued => 0xffff#32
  | .number v => v

def statusWord (s : Status) : BitVec 32 :=
  condWord s.cond ||| (s.event.getD 0#32 <<< 16) ||| s.rest.getD 0#32

end Strace.Pack
