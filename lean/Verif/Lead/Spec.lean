import Verif.Lead.Model
import Verif.Quote.Spec
import Verif.Time.Props
/-!
# What comes first in a line: a reader

The reader knows the options strace was run with, and nothing of the tracees.
-/
namespace Strace.Lead
open Strace.Base

/-- what can be known from the beginning of a line -/
structure Shown where
  /-- whose line it is, if that is said -/
  pid : Option Nat
  /-- the name of the task -/
  comm : List Nat
  /-- the time of day or the seconds since the Epoch, and the parts of a second -/
  stamp : Option (List Nat × Nat)
  /-- the seconds since the line before, and the parts of a second -/
  rel : Option (Int × Nat)
  /-- the number of the call -/
  nr : Option (Option Nat)
  /-- where the tracee is -/
  ip : Option (Option Nat)
  deriving DecidableEq, Repr

/-- so many parts of a second, of which there are ten to the power of the digits: the rest is cut off -/
def parts (p : Prec) (nsec : Int) : Nat := (nsec * 10 ^ p.width / 1000000000).toNat

/-- what is to be told -/
def toTell (clock : Int → Option (List Nat)) (c : Cfg) (e : Ev) (d : Time.Ts) : Shown where
  pid := if c.pidPfx = true ∨ (1 < e.nprocs ∧ c.outf = false) then some e.pid else none
  comm := if (c.pidPfx = true ∨ (1 < e.nprocs ∧ c.outf = false)) ∧ c.comm = true then e.comm else []
  stamp := c.tflag.map fun unix =>
    (if unix = true then decI e.real.sec else (clock e.real.sec).getD (decI e.real.sec), parts c.t e.real.nsec)
  rel := if c.rflag = true then some (d.sec, parts c.r d.nsec) else none
  nr := if c.nflag = true then some e.nr else none
  ip := if c.iflag = true then some e.ip else none

/-! ### Reading -/

def isDigit (c : Nat) : Bool := decide (48 ≤ c) && decide (c ≤ 57)
def digits (l : List Nat) : List Nat := l.takeWhile isDigit
def afterDigits (l : List Nat) : List Nat := l.dropWhile isDigit
def skipSp (l : List Nat) : List Nat := l.dropWhile fun c => decide (c = 32)
def upTo (stop : Nat) (l : List Nat) : List Nat := l.takeWhile fun c => decide (c ≠ stop)
def from_ (stop : Nat) (l : List Nat) : List Nat := l.dropWhile fun c => decide (c ≠ stop)

/-- hexadecimal digits -/
def readHex (l : List Nat) : Nat := l.foldl (fun a c => a * 16 + Quote.hexDigitVal c) 0

/-- a number with a sign -/
def readInt (l : List Nat) : Int × List Nat :=
  if l.head? = some 45 then (-(readDec (digits l.tail) : Int), afterDigits l.tail) else (readDec (digits l), afterDigits l)

/-- a name in angle brackets, if there is one -/
def readComm (l : List Nat) : List Nat × List Nat :=
  if l.head? = some 60 then
    (((Quote.decodeLit false (34 :: upTo 62 l.tail ++ [34])).getD ([], [])).1, (from_ 62 l.tail).tail)
  else ([], l)

/-- a pid -/
def readPid (c : Cfg) (l : List Nat) : (Option Nat × List Nat) × List Nat :=
  if c.pidPfx = true then
    let d := digits l
    let q := readComm (afterDigits l)
    ((some (readDec d), q.1), if q.1 = [] then (afterDigits l).drop (5 - d.length + 1) else q.2.tail)
  else if c.outf = false ∧ [91, 112, 105, 100, 32] <+: l then
    let l' := skipSp (l.drop 5)
    let q := readComm (afterDigits l')
    ((some (readDec (digits l')), q.1), q.2.drop 2)
  else ((none, []), l)

/-- the digits of a fraction after the dot -/
def readFrac (p : Prec) (l : List Nat) : Nat × List Nat :=
  if p.width ≠ 0 then (readDec (digits l.tail), afterDigits l.tail) else (0, l)

/-- a time stamp -/
def readStamp (c : Cfg) (l : List Nat) : Option (List Nat × Nat) × List Nat :=
  if c.tflag = none then (none, l)
  else
    let s := l.takeWhile fun ch => decide (ch ≠ 46 ∧ ch ≠ 32)
    let q := readFrac c.t (l.drop s.length)
    -- without a fraction nothing is said of the parts of a second
    (some (s, q.1), q.2.tail)

/-- a difference -/
def readRel (c : Cfg) (l : List Nat) : Option (Int × Nat) × List Nat :=
  if c.rflag = true then
    let n := readInt (skipSp (if c.tflag ≠ none then l.drop 2 else l))
    let q := readFrac c.r n.2
    (some (n.1, q.1), q.2.drop (if c.tflag ≠ none then 2 else 1))
  else (none, l)

/-- a number in brackets -/
def readNr (c : Cfg) (l : List Nat) : Option (Option Nat) × List Nat :=
  if c.nflag = true then
    let t := upTo 93 l.tail
    (some (if t.head? = some 63 then none else some (readDec (skipSp t))), (from_ 93 l.tail).drop 2)
  else (none, l)

/-- an address in brackets -/
def readIp (c : Cfg) (l : List Nat) : Option (Option Nat) × List Nat :=
  if c.iflag = true then
    let t := upTo 93 l.tail
    (some (if t.head? = some 63 then none else some (readHex t)), (from_ 93 l.tail).drop 2)
  else (none, l)

/-- the beginning of a line, and the rest -/
def read (c : Cfg) (l : List Nat) : Shown × List Nat :=
  let p := readPid c l
  let s := readStamp c p.2
  let r := readRel c s.2
  let n := readNr c r.2
  let i := readIp c n.2
  (⟨p.1.1, p.1.2, s.1, r.1, n.1, i.1⟩, i.2)

/-! ### Conditions -/

/-- a precision that strace has: seconds, or thousandths, millionths or billionths of them -/
def OkPrec (p : Prec) : Prop := p.scale * 10 ^ p.width = 1000000000

/-- the time of day is written with digits and colons -/
def OkClock (clock : Int → Option (List Nat)) : Prop := ∀ s t, clock s = some t → ∀ ch ∈ t, 48 ≤ ch ∧ ch ≤ 58

/-- the bytes of a name -/
def OkComm (l : List Nat) : Prop := ∀ b ∈ l, 0 < b ∧ b < 256

end Strace.Lead
