import Verif.Count.Model
/-!
# The text of the summary: `call_summary_pers` of src/count.c

`double` is modelled as IEEE 754 binary64 with rounding to the nearest, ties to even, for values that are not negative: a
number is kept as a natural number of units of 2^-200.  Subnormal numbers and infinity do not occur: the smallest value met is
greater than 2^-95.  An integer is converted exactly (it is smaller than 2^53: seconds, calls).
-/
namespace Strace.Table
open Strace.Base Strace.Time Strace.Count

/-! ### Floating point (contract of the C implementation) -/

/-- the unit of the numbers kept -/
def S : Nat := 2 ^ 200

/-- the integer nearest to `a / b`; ties to even -/
def near (a b : Nat) : Nat :=
  if 2 * (a % b) < b then a / b
  else if 2 * (a % b) > b then a / b + 1
  else if a / b % 2 = 0 then a / b else a / b + 1

/-- distance of neighbouring doubles around `q`: 53 significant bits -/
def ulp (q : Nat) : Nat := 2 ^ (Nat.log2 q - 52)

/-- the double nearest to `a / b` -/
def fl (a b : Nat) : Nat := near a (b * ulp (a / b)) * ulp (a / b)

def fadd (x y : Nat) : Nat := fl (x + y) 1
def fmul (x y : Nat) : Nat := fl (x * y) S
def fdiv (x y : Nat) : Nat := fl (x * S) y

/-- printf "%.*f" -/
def fixed (p x : Nat) : List Nat :=
  dec (near (x * 10 ^ p) S / 10 ^ p) ++ 46 :: decPad p (near (x * 10 ^ p) S % 10 ^ p)

/-- `ts_float`, src/util.c:103-107, for a time that is not negative -/
def secs (t : Ts) : Nat := fadd (t.sec.toNat * S) (fdiv (t.nsec.toNat * S) (1000000000 * S))

/-- `(uint64_t) (x * 1e6)`, src/count.c:372-374, src/count.c:458-459, src/count.c:492 -/
def usecs (x : Nat) : Nat := fmul x (1000000 * S) / S

/-! ### Statistics used for the widths -/

structure Wid where
  minMax : Ts
  avgMax : Ts
  nameMax : Nat
  deriving Repr, DecidableEq

/-- `tv_min_max`, `tv_avg_max` and `sc_name_max` of the statistics loop, src/count.c:320-336; the rows have their averages
already, as `Count.sumLoop` leaves them; each comes with its name -/
def widLoop : Wid → List (List Nat × Row) → Wid
  | w, [] => w
  | w, (n, r) :: l =>
    if r.calls = 0 then widLoop w l
    else widLoop ⟨tsMax w.minMax r.tmin, tsMax w.avgMax r.tavg, max w.nameMax n.length⟩ l

def wid0 : Wid := ⟨zeroTs, zeroTs, 0⟩

/-! ### Columns -/

/-- `cdesc`, src/count.c:351-361: title -/
def title : Col → List Nat
  | .none => []
  | .percent => [37, 32, 116, 105, 109, 101]
  | .total => [115, 101, 99, 111, 110, 100, 115]
  | .min => [115, 104, 111, 114, 116, 101, 115, 116]
  | .max => [108, 111, 110, 103, 101, 115, 116]
  | .avg => [117, 115, 101, 99, 115, 47, 99, 97, 108, 108]
  | .calls => [99, 97, 108, 108, 115]
  | .errors => [101, 114, 114, 111, 114, 115]
  | .name => [115, 121, 115, 99, 97, 108, 108]

/-- `cdesc`, src/count.c:351-361: width -/
def sz : Col → Nat
  | .none => 0
  | .percent => 6
  | .total => 11
  | .min => 8
  | .max => 7
  | .avg => 11
  | .calls => 9
  | .errors => 9
  | .name => 16

/-- `cwidths`, src/count.c:364-379; `num_chars`, src/count.c:286-296, is the length of the text -/
def width (tot : Totals) (w : Wid) (c : Col) : Nat :=
  max (sz c) (match c with
    | .none => 0
    | .percent => 6
    | .total => (fixed 6 (secs tot.time)).length
    | .min => (dec w.minMax.sec.toNat).length + 7
    | .max => (dec tot.tmax.sec.toNat).length + 7
    | .avg => (dec (usecs (secs w.avgMax))).length
    | .calls => (dec tot.calls).length
    | .errors => (dec tot.errors).length
    | .name => w.nameMax + 1)

/-- the percentage, src/count.c:442-446 -/
def pct (t cum : Ts) : Nat :=
  let p := fmul (100 * S) (secs t)
  if p = 0 then p else fdiv p (secs cum)

/-- printf "%.0" PRIu64: nothing for zero -/
def decOrNone (n : Nat) : List Nat := if n = 0 then [] else dec n

/-- what a row shows in a column, before padding, src/count.c:448-463 -/
def cell (tot : Totals) (n : List Nat) (r : Row) : Col → List Nat
  | .none => []
  | .percent => fixed 2 (pct r.time tot.time)
  | .total => fixed 6 (secs r.time)
  | .min => fixed 6 (secs r.tmin)
  | .max => fixed 6 (secs r.tmax)
  | .avg => dec (usecs (secs r.tavg))
  | .calls => dec r.calls
  | .errors => decOrNone r.errors
  | .name => n

/-- what the last line shows in a column, before padding, src/count.c:482-496 -/
def totalCell (tot : Totals) : Col → List Nat
  | .none => []
  | .percent => fixed 2 (100 * S)
  | .total => fixed 6 (secs tot.time)
  | .min => fixed 6 (secs tot.tmin)
  | .max => fixed 6 (secs tot.tmax)
  | .avg => dec (usecs (fdiv (secs tot.time) (tot.calls * S)))
  | .calls => dec tot.calls
  | .errors => decOrNone tot.errors
  | .name => [116, 111, 116, 97, 108]

/-- the conversions of src/count.c:351-361, 387-389 and 417-431: names to the left and not padded in the last column, everything
else to the right -/
def put (c : Col) (last : Bool) (w : Nat) (s : List Nat) : List Nat :=
  if c = .name then if last then s else s ++ List.replicate (w - s.length) 32
  else List.replicate (w - s.length) 32 ++ s

/-- a line, src/count.c:385-394, src/count.c:448-466 and src/count.c:481-498: columns with a blank between them -/
def line (width : Col → Nat) (text : Col → List Nat) : List Col → List Nat
  | [] => []
  | [c] => put c true (width c) (text c)
  | c :: d :: l => put c false (width c) (text c) ++ 32 :: line width text (d :: l)

/-- the divider, src/count.c:396-404 and src/count.c:471-479 -/
def divider (width : Col → Nat) : List Col → List Nat
  | [] => []
  | [c] => List.replicate (width c) 45
  | c :: d :: l => List.replicate (width c) 45 ++ 32 :: divider width (d :: l)

/-- `call_summary_pers`, src/count.c:298-503: the lines printed.  `rows` are the names and rows in the order of `counts`,
`sorted` the same in the order of `indices`; `cols` are the columns up to `last_column`. -/
def summary (tot : Totals) (rows sorted : List (List Nat × Row)) (cols : List Col) : List (List Nat) :=
  let w := width tot (widLoop wid0 rows)
  [line w title cols, divider w cols] ++
    (sorted.filter fun p => p.2.calls ≠ 0).map (fun p => line w (cell tot p.1 p.2) cols) ++
    [divider w cols, line w (totalCell tot) cols]

end Strace.Table
