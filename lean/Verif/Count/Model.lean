import Verif.Time.Model
/-!
# The summary table: src/count.c

Times are 64 bits; `time_t` is signed, so `max_ts` is 2^63 - 1 seconds and 999999999 nanoseconds.  A signed overflow is the
outcome `none`.  What is printed of a time (`ts_float`, `%.6f`) is in `Verif.Table.Model`.
-/
namespace Strace.Count
open Strace.Time

/-- `struct call_counts`, src/count.c:22-29 -/
structure Row where
  time : Ts
  tmin : Ts
  tmax : Ts
  tavg : Ts
  calls : Nat
  errors : Nat
  deriving Repr, DecidableEq

/-- src/count.c:34-37 -/
def zeroTs : Ts := ⟨0, 0⟩
def maxTs : Ts := ⟨2 ^ 63 - 1, 999999999⟩

/-- a row after `xcalloc` and the loop of src/count.c:108-111 -/
def row0 : Row := ⟨zeroTs, maxTs, zeroTs, zeroTs, 0, 0⟩

/-- what `count_syscall` gets of a call: personality and number, whether it failed, and the two times subtracted: exit
and entry of the call, or the system time of the process then, src/count.c:120-127 -/
structure Call where
  pers : Nat
  scno : Nat
  failed : Bool
  stop : Ts
  start : Ts
  deriving Repr, DecidableEq

/-- the tables of all personalities, `countv`, src/count.c:31 -/
abbrev Tabs := Nat → Option (List Row)

/-- the time counted, src/count.c:120-131 -/
def spent (overhead : Ts) (c : Call) : Option Ts :=
  match tsSub c.stop c.start with
  | none => none
  | some w =>
    match tsSub w overhead with
    | none => none
    | some w => some (tsMax w zeroTs)

/-- the row after a call, src/count.c:114-135 -/
def bump (overhead : Ts) (c : Call) (r : Row) : Option Row :=
  match spent overhead c with
  | none => none
  | some w =>
    match tsAdd r.time w with
    | none => none
    | some t =>
      some { r with
        calls := (r.calls + 1) % 2 ^ 64
        errors := if c.failed = true then (r.errors + 1) % 2 ^ 64 else r.errors
        time := t
        tmin := tsMin r.tmin w
        tmax := tsMax r.tmax w }

/-- the table, allocated at the first call, src/count.c:108-113 -/
def rowsOf (n : Nat) : Option (List Row) → List Row
  | none => List.replicate n row0
  | some rows => rows

/-- `count_syscall`, src/count.c:102-136; `nsys` is the number of system calls of each personality -/
def count (overhead : Ts) (nsys : Nat → Nat) (t : Tabs) (c : Call) : Option Tabs :=
  if c.scno < nsys c.pers then
    let rows := rowsOf (nsys c.pers) (t c.pers)
    match bump overhead c (rows.getD c.scno row0) with
    | none => none
    | some r => some fun p => if p = c.pers then some (rows.set c.scno r) else t p
  else some t

/-- a history of calls -/
def countAll (overhead : Ts) (nsys : Nat → Nat) : Tabs → List Call → Option Tabs
  | t, [] => some t
  | t, c :: l =>
    match count overhead nsys t c with
    | none => none
    | some t => countAll overhead nsys t l

/-! ### Totals, src/count.c:299-337 -/

structure Totals where
  time : Ts
  tmin : Ts
  tmax : Ts
  calls : Nat
  errors : Nat
  deriving Repr, DecidableEq

def totals0 : Totals := ⟨zeroTs, maxTs, zeroTs, 0, 0⟩

/-- the statistics loop, src/count.c:320-337: totals and rows with their averages -/
def sumLoop : Totals → List Row → Option (Totals × List Row)
  | s, [] => some (s, [])
  | s, r :: l =>
    if r.calls = 0 then (sumLoop s l).map fun p => (p.1, r :: p.2)
    else
      match tsAdd s.time r.time, tsDiv r.time r.calls with
      | some t, some a =>
        (sumLoop ⟨t, tsMin s.tmin r.tmin, tsMax s.tmax r.tmax, (s.calls + r.calls) % 2 ^ 64,
          (s.errors + r.errors) % 2 ^ 64⟩ l).map fun p => (p.1, { r with tavg := a } :: p.2)
      | _, _ => none

/-! ### Sorting -/

/-- `enum count_summary_columns`, src/count.c:42-54 -/
inductive Col
  | none
  | percent
  | total
  | min
  | max
  | avg
  | calls
  | errors
  | name
  deriving Repr, DecidableEq

/-- `count_cmp` and `error_cmp`, src/count.c:177-197: the counts are put into `unsigned int` variables -/
def numCmp (a b : Nat) : Int :=
  if a % 2 ^ 32 < b % 2 ^ 32 then 1 else if a % 2 ^ 32 > b % 2 ^ 32 then -1 else 0

/-- `strcmp` (libc contract): the sign of the difference at the first place that differs -/
def strcmp : List Nat → List Nat → Int
  | [], [] => 0
  | [], _ :: _ => -1
  | _ :: _, [] => 1
  | a :: l, b :: m => if a < b then -1 else if a > b then 1 else strcmp l m

/-- the comparison functions, src/count.c:138-197, and which one a column gets, src/count.c:205-214; a row comes with its
name.  `CSC_NONE` gets none. -/
def cmpFor : Col → Option (List Nat × Row → List Nat × Row → Int)
  | .none => Option.none
  | .percent => some fun a b => -tsCmp a.2.time b.2.time
  | .total => some fun a b => -tsCmp a.2.time b.2.time
  | .min => some fun a b => -tsCmp a.2.tmin b.2.tmin
  | .max => some fun a b => -tsCmp a.2.tmax b.2.tmax
  | .avg => some fun a b => -tsCmp a.2.tavg b.2.tavg
  | .calls => some fun a b => numCmp a.2.calls b.2.calls
  | .errors => some fun a b => numCmp a.2.errors b.2.errors
  | .name => some fun a b => strcmp a.1 b.1

/-- `column_aliases`, src/count.c:68-100 -/
def aliases : List (String × Col) :=
  [("time", .percent), ("time_percent", .percent), ("time-percent", .percent), ("time_total", .total),
   ("time-total", .total), ("total_time", .total), ("total-time", .total), ("min_time", .min), ("min-time", .min),
   ("shortest", .min), ("time_min", .min), ("time-min", .min), ("longest", .max), ("max_time", .max), ("max-time", .max),
   ("time_max", .max), ("time-max", .max), ("avg_time", .avg), ("avg-time", .avg), ("time_avg", .avg), ("time-avg", .avg),
   ("calls", .calls), ("count", .calls), ("error", .errors), ("errors", .errors), ("name", .name), ("syscall", .name),
   ("syscall_name", .name), ("syscall-name", .name), ("none", .none), ("nothing", .none)]

/-- `set_sortby`, src/count.c:202-224: `none` is the error -/
def setSortby (s : String) : Option Col := (aliases.find? fun p => p.1 = s).map (·.2)

/-! ### Columns -/

/-- the test of src/count.c:241-242: `strncmp(name, prev, len) || name[len]` is false.  The first `len` characters of `prev`
are not the end of it. -/
def aliasIs (name prev : List Char) (len : Nat) : Bool :=
  decide (name.take len = prev.take len) && decide (name[len]? = none)

/-- the search for a name, src/count.c:240-265 -/
def findColumn (prev : List Char) (len : Nat) : Option Col :=
  (aliases.find? fun p => aliasIs p.1.toList prev len && decide (p.2 ≠ .none)).map (·.2)

/-- the loop of `set_count_summary_columns`, src/count.c:235-271: `columns` so far; `none` is an error.  `visible` says the
same as membership in `columns`. -/
def colLoop : Nat → List Char → List Col → Option (List Col)
  | 0, _, _ => none
  | fuel + 1, prev, cols =>
    let len := (prev.takeWhile (· ≠ ',')).length
    match findColumn prev len with
    | none => none
    | some c =>
      if c ∈ cols then none
      else if len < prev.length then colLoop fuel (prev.drop (len + 1)) (cols ++ [c])
      else some (cols ++ [c])

/-- `set_count_summary_columns`, src/count.c:226-278 -/
def setColumns (s : List Char) : Option (List Col) :=
  (colLoop (s.length + 1) s []).map fun l => if .name ∈ l then l else l ++ [.name]

/-! ### Rows shown -/

/-- the rows printed, src/count.c:434-467: `indices` after sorting -/
def shown (rows : List Row) (indices : List Nat) : List Nat :=
  indices.filter fun i => (rows.getD i row0).calls ≠ 0

end Strace.Count
