import Verif.Base.Dec
import Verif.StringToUint.Model
/-
Model of the time arithmetic and the clock tick printer of src/util.c.  `time_t`, `long` and
`long long` are 64 bits; a signed overflow (undefined behaviour in C) is the outcome `none`.
`ts_float` (floating point) is modelled in `Verif.Table.Model`.
-/
namespace Strace.Time
open Strace.Base Strace.StringToUint

/-- `struct timespec` -/
structure Ts where
  sec : Int
  nsec : Int
deriving Repr, DecidableEq

/-- a 64-bit signed result, or undefined behaviour -/
def i64 (x : Int) : Option Int := if -(2 ^ 63 : Int) ≤ x ∧ x < 2 ^ 63 then some x else none

/-- src/util.c:85-89 `ts_nz` -/
def tsNz (a : Ts) : Bool := a.sec ≠ 0 || a.nsec ≠ 0

/-- src/util.c:91-101 `ts_cmp` -/
def tsCmp (a b : Ts) : Int :=
  if a.sec < b.sec ∨ (a.sec = b.sec ∧ a.nsec < b.nsec) then -1
  else if a.sec > b.sec ∨ (a.sec = b.sec ∧ a.nsec > b.nsec) then 1
  else 0

/-- src/util.c:109-118 `ts_add` -/
def tsAdd (a b : Ts) : Option Ts := do
  let sec ← i64 (a.sec + b.sec)
  let nsec ← i64 (a.nsec + b.nsec)
  if nsec ≥ 1000000000 then
    let sec ← i64 (sec + 1)
    return ⟨sec, nsec - 1000000000⟩
  else return ⟨sec, nsec⟩

/-- src/util.c:120-129 `ts_sub` -/
def tsSub (a b : Ts) : Option Ts := do
  let sec ← i64 (a.sec - b.sec)
  let nsec ← i64 (a.nsec - b.nsec)
  if nsec < 0 then
    let sec ← i64 (sec - 1)
    return ⟨sec, nsec + 1000000000⟩
  else return ⟨sec, nsec⟩

/-- reinterpretation of a 64-bit unsigned value as signed -/
def toSigned (x : Nat) : Int := if x < 2 ^ 63 then x else (x : Int) - 2 ^ 64

/-- src/util.c:131-137 `ts_div`: `n` is `uint64_t`, so the first two quotients are computed in unsigned
64-bit arithmetic (with wrap-around) and converted to signed; `n = 0` is undefined behaviour. -/
def tsDiv (a : Ts) (n : Nat) : Option Ts :=
  if n = 0 then none
  else
    let sec := (a.sec % 2 ^ 64).toNat
    let ns := (a.nsec % 2 ^ 64).toNat
    let nsec := toSigned ((sec % n * 1000000000 + ns + n / 2) % 2 ^ 64 / n)
    some ⟨toSigned ((sec / n + (nsec.tdiv 1000000000 % 2 ^ 64).toNat) % 2 ^ 64), nsec.tmod 1000000000⟩

/-- src/util.c:139-143 `ts_min` -/
def tsMin (a b : Ts) : Ts := if tsCmp a b < 0 then a else b

/-- src/util.c:145-149 `ts_max` -/
def tsMax (a b : Ts) : Ts := if tsCmp a b > 0 then a else b

/-! ### time constants on the command line -/

/-- `tolower` in the C locale (libc contract) -/
def lower (c : Nat) : Nat := if 65 ≤ c ∧ c ≤ 90 then c + 32 else c

/-- `strcasecmp(a, b) == 0` (libc contract) -/
def caseEq (a b : List Nat) : Bool := a.map lower == b.map lower

/-- src/util.c:65-70, the units table of `str2timescale_ex`: nanoseconds per unit -/
def units : List (Nat × List Nat) :=
  [(1000000000, [115]), (1000000, [109, 115]), (1000, [117, 115]), (1, [110, 115])]

/-- src/util.c:61-82 `str2timescale_ex` through `str2timescale_sfx` (src/defs.h:1569): the empty suffix
is microseconds, an unknown one is the negative result -1 (`none`). -/
def timescaleSfx (arg : List Nat) : Option Nat :=
  if arg = [] then some 1000
  else (units.find? fun u => caseEq u.2 arg).map (·.1)

/-- `strspn` (libc contract) -/
def strspn (s acc : List Nat) : Nat := (s.takeWhile fun c => acc.contains c).length

/-- src/util.c:156 "eE.-+0123456789" -/
def floatAccept : List Nat := [101, 69, 46, 45, 43, 48, 49, 50, 51, 52, 53, 54, 55, 56, 57]
/-- src/util.c:157 "+0123456789" -/
def intAccept : List Nat := [43, 48, 49, 50, 51, 52, 53, 54, 55, 56, 57]

/-- src/util.c:151-195 `parse_ts`.  `fl` stands for the floating-point branch (lines 164-172, 186-190),
which is modelled in area Tsf.  `none` is the return value -1. -/
def parseTs (fl : List Nat → Option Ts) (s : List Nat) : Option Ts :=
  if strspn s floatAccept > strspn s intAccept then fl s
  else
    match stringToUintEx s llongMax (some [115, 109, 117, 110]) with
    | none => none
    | some (v, e) =>
      match timescaleSfx e with
      | none => none
      | some scale => some ⟨v.tdiv (1000000000 / scale : Nat), v.tmod (1000000000 / scale : Nat) * scale⟩

/-! ### clock ticks -/

/-- src/util.c:197-204 ILOG10_ITER_ -/
def ilogIter (s : Nat × Nat) (div pow : Nat) : Nat × Nat :=
  if s.1 ≥ div then (s.1 / div, s.2 + pow) else s

/-- src/util.c:208-219 `ilog10` -/
def ilog10 (val : Nat) : Nat :=
  (ilogIter (ilogIter (ilogIter (ilogIter (ilogIter (val, 0) 10000000000000000 16) 100000000 8) 10000 4) 100 2) 10 1).2

/-- src/util.c:222-231 `print_ticks`, the comment printed after the number: `some` text without the
comment marks, or `none` if there is no comment.  `raw` is XLAT_STYLE_RAW. -/
def ticksComment (raw : Bool) (val : Nat) (freq : Int) (precision : Nat) : Option (List Nat) :=
  if raw = false ∧ freq > 0 ∧ val > 0 then
    some (dec (val / freq.toNat) ++ [46] ++ decPad precision (val % freq.toNat) ++ [32, 115])
  else none

/-- src/util.c:233-244 `print_ticks_d`, the comment -/
def ticksDComment (raw : Bool) (val : Int) (freq : Int) (precision : Nat) : Option (List Nat) :=
  if raw = false ∧ freq > 1 ∧ val ≠ 0 then
    some ((if val < 0 then [45] else []) ++ dec (val.tdiv freq).natAbs ++ [46] ++
      decPad precision (val.tmod freq).natAbs ++ [32, 115])
  else none

/-- src/util.c:246-264 `print_clock_t`, the comment, with `clk` the value of sysconf(_SC_CLK_TCK) -/
def clockComment (raw : Bool) (val : Nat) (clk : Int) : Option (List Nat) :=
  ticksComment raw val clk (if clk > 0 then min (ilog10 clk.toNat) 9 else 0)

end Strace.Time
