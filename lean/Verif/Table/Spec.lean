import Verif.Count.Props
import Verif.Base.Dec
/-!
# How the summary is read

A reader takes the widths of the columns from the line of dashes, cuts every other line at these places, the last column
reaching to the end of the line, and takes away the blanks around.
-/
namespace Strace.Table
open Strace.Base Strace.Time Strace.Count

/-- lengths of the runs of dashes, `n` already seen -/
def runs : List Nat → Nat → List Nat
  | [], n => [n]
  | c :: l, n => if c = 32 then n :: runs l 0 else runs l (n + 1)

/-- without the blanks at both ends -/
def trim (l : List Nat) : List Nat := ((l.dropWhile (· = 32)).reverse.dropWhile (· = 32)).reverse

/-- the fields of a line -/
def fields : List Nat → List Nat → List (List Nat)
  | [], _ => []
  | [_], l => [trim l]
  | w :: v :: ws, l => trim (l.take w) :: fields (v :: ws) (l.drop (w + 1))

/-- a text is `n` units of 10^-p: digits, a point, and `p` digits -/
def Decimal (p : Nat) (text : List Nat) (n : Nat) : Prop :=
  ∃ a b, text = a ++ 46 :: b ∧ a ≠ [] ∧ b.length = p ∧ (∀ c ∈ a ++ b, 48 ≤ c ∧ c ≤ 57) ∧ readDec (a ++ b) = n

/-- a text is a number -/
def Number (text : List Nat) (n : Nat) : Prop := text ≠ [] ∧ (∀ c ∈ text, 48 ≤ c ∧ c ≤ 57) ∧ readDec text = n

/-- a time that is not negative -/
def Pos (t : Ts) : Prop := Norm t ∧ 0 ≤ t.sec

instance (t : Ts) : Decidable (Pos t) := by unfold Pos Norm; infer_instance

/-- a text shows a time in seconds, to the nearest microsecond -/
def ShowsTime (text : List Nat) (t : Ts) : Prop :=
  ∃ n, Decimal 6 text n ∧ 2 * (1000 * (n : Int) - ns t) ≤ 1000 ∧ 2 * (ns t - 1000 * n) ≤ 1000

/-- what a field of a row is to show -/
def Shows (tot : Totals) (name : List Nat) (r : Row) (text : List Nat) : Col → Prop
  | .none => text = []
  | .percent => ∃ n, Decimal 2 text n ∧ n ≤ 10000 ∧
      100 * (n * ns tot.time - 10000 * ns r.time) ≤ 51 * ns tot.time ∧
      100 * (10000 * ns r.time - n * ns tot.time) ≤ 51 * ns tot.time
  | .total => ShowsTime text r.time
  | .min => ShowsTime text r.tmin
  | .max => ShowsTime text r.tmax
  | .avg => ∃ n, Number text n ∧ ((n : Int) = ns r.tavg / 1000 ∨ (ns r.tavg % 1000 = 0 ∧ (n : Int) + 1 = ns r.tavg / 1000))
  | .calls => Number text r.calls
  | .errors => if r.errors = 0 then text = [] else Number text r.errors
  | .name => text = name

/-- what a field of the last line is to show -/
def ShowsTotal (tot : Totals) (text : List Nat) : Col → Prop
  | .none => text = []
  | .percent => Decimal 2 text 10000
  | .total => ShowsTime text tot.time
  | .min => ShowsTime text tot.tmin
  | .max => ShowsTime text tot.tmax
  | .avg => ∃ n, Number text n ∧ 1000 * (n * tot.calls : Int) ≤ ns tot.time + 1 ∧
      ns tot.time ≤ 1000 * (n * tot.calls : Int) + 1000 * tot.calls + 1
  | .calls => Number text tot.calls
  | .errors => if tot.errors = 0 then text = [] else Number text tot.errors
  | .name => text = [116, 111, 116, 97, 108]

/-- rows and totals as a history of calls leaves them (`history_sane`), less than 99999 seconds in all -/
structure Sane (tot : Totals) (rows : List (List Nat × Row)) : Prop where
  time : Pos tot.time
  tmin : Pos tot.tmin
  tmax : Pos tot.tmax
  min_le : ns tot.tmin ≤ ns tot.tmax
  max_le : ns tot.tmax ≤ ns tot.time
  sec : tot.time.sec < 99999
  calls : 0 < tot.calls ∧ tot.calls < 2 ^ 64
  some : ∃ p ∈ rows, p.2.calls ≠ 0
  pos : ∀ p ∈ rows, p.2.calls ≠ 0 → Pos p.2.time ∧ Pos p.2.tmin ∧ Pos p.2.tmax ∧ Pos p.2.tavg
  le : ∀ p ∈ rows, p.2.calls ≠ 0 → ns p.2.time ≤ ns tot.time ∧ ns tot.tmin ≤ ns p.2.tmin ∧ ns p.2.tmin ≤ ns p.2.tmax ∧
    ns p.2.tmax ≤ ns tot.tmax ∧ ns p.2.tavg ≤ ns p.2.time
  num : ∀ p ∈ rows, p.2.calls ≠ 0 → p.2.calls ≤ tot.calls ∧ p.2.errors ≤ tot.errors
  name : ∀ p ∈ rows, p.2.calls ≠ 0 → 32 ∉ p.1

/-- a time does not become longer by rounding it: not within half a microsecond below 10, 100, ... seconds -/
def Fine (t : Ts) : Prop := t.nsec < 999999500 ∨ ∀ k, 0 < k → t.sec + 1 ≠ 10 ^ k

/-- no time in a column of the shortest or the longest call becomes longer by rounding it -/
structure AllFine (tot : Totals) (rows : List (List Nat × Row)) (cols : List Col) : Prop where
  min : .min ∈ cols → Fine tot.tmin ∧ ∀ p ∈ rows, p.2.calls ≠ 0 → Fine p.2.tmin
  max : .max ∈ cols → Fine tot.tmax ∧ ∀ p ∈ rows, p.2.calls ≠ 0 → Fine p.2.tmax

end Strace.Table
