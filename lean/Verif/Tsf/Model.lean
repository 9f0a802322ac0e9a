import Verif.Time.Model
import Verif.Table.Model
/-!
# Model of times that are given with a fraction or an exponent

The branch of `parse_ts` with floating point numbers, which area Time leaves open.

Doubles are natural numbers that count units of 2^-1074, the smallest double, so that all doubles that are not negative are there
exactly; `Table.fl` is the rounding of binary64 (to nearest, ties to even), which the C implementation and `strtod` of the C
library are assumed to do.  Simplifications: `strtod` knows decimal numbers, and "nan" after a minus sign; a number that is
hexadecimal, or infinite, or "nan" with something in parentheses can only come here after a minus sign, and is here not a number
(strace rejects them too, except for the hexadecimal zero and "nan" with parentheses).
-/
namespace Strace.Tsf
open Strace.Time
open Strace.Table (fl)

/-- 1, in the unit of doubles -/
def one : Nat := 2 ^ 1074

/-- A decimal digit. -/
def isDigit (c : Nat) : Bool := decide (48 ≤ c) && decide (c ≤ 57)

/-- The number that digits denote. -/
def number (l : List Nat) : Nat := l.foldl (fun n c => 10 * n + (c - 48)) 0

/-- An optional sign, and the rest (libc contract of `strtod`). -/
def sign : List Nat → Bool × List Nat
  | 43 :: r => (false, r)
  | 45 :: r => (true, r)
  | r => (false, r)

/-- The digits after a point, and the rest. -/
def fraction : List Nat → List Nat × List Nat
  | 46 :: r => (r.takeWhile isDigit, r.dropWhile isDigit)
  | r => ([], r)

/-- The exponent, its sign and the rest: an "e" without digits after it is not part of the number. -/
def exponent (s : List Nat) : Bool × Nat × List Nat :=
  match s with
  | [] => (false, 0, [])
  | c :: r =>
    if c = 101 ∨ c = 69 then
      let x := sign r
      let d := x.2.takeWhile isDigit
      if d = [] then (false, 0, s) else (x.1, number d, x.2.dropWhile isDigit)
    else (false, 0, s)

/-- What `strtod` finds: no number, a result out of range (`errno`), no number of binary64 (NaN), or a double. -/
inductive Num
  | none
  | range
  | nan (rest : List Nat)
  | val (neg : Bool) (v : Nat) (rest : List Nat)
deriving DecidableEq, Repr

/-- The double for the number `p / q` (libc contract): too large numbers, and too small ones that are not exact, are out of
range. -/
def round (neg : Bool) (p q : Nat) (rest : List Nat) : Num :=
  let v := fl (p * one) q
  if 2 ^ 1024 * one ≤ v then .range
  else if v < 2 ^ 52 ∧ v * q ≠ p * one then .range
  else .val neg v rest

/-- `strtod` (libc contract). -/
def strtod (s : List Nat) : Num :=
  let x := sign s
  let ip := x.2.takeWhile isDigit
  let f := fraction (x.2.dropWhile isDigit)
  if ip = [] ∧ f.1 = [] then
    if x.1 = true ∧ caseEq (x.2.take 3) [110, 97, 110] = true then .nan (x.2.drop 3) else .none
  else
    let e := exponent f.2
    if e.1 = true then round x.1 (number (ip ++ f.1)) (10 ^ (f.1.length + e.2.1)) e.2.2
    else round x.1 (number (ip ++ f.1) * 10 ^ e.2.1) (10 ^ f.1.length) e.2.2

/-- What `parse_ts` does: it rejects the text, its behaviour is not defined, or it gives a time. -/
inductive Out
  | reject
  | undefined
  | ok (t : Ts)
deriving DecidableEq, Repr

/-- src/util.c:186-190: the seconds, cut off; then the nanoseconds from what is left.  Conversions of doubles that the type has no
place for, and products that are too large for it, are not defined. -/
def split (v scale : Nat) : Out :=
  let u := 1000000000 / scale
  let sec := fl v u / one
  if 2 ^ 63 ≤ sec ∨ 2 ^ 63 ≤ sec * u then .undefined
  else
    let whole := fl (sec * u * one) 1
    if whole ≤ v then
      let n := fl (fl (v - whole) 1 * scale) 1 / one
      if 2 ^ 64 ≤ n then .undefined else .ok ⟨sec, (n % 1000000000 : Nat)⟩
    else
      let n := fl (fl (whole - v) 1 * scale) 1 / one
      if n = 0 then .ok ⟨sec, 0⟩ else .undefined

/-- src/util.c:164-172 and 180-190: the branch of `parse_ts` with floating point numbers. -/
def parseFloat (s : List Nat) : Out :=
  match strtod s with
  | .none => .reject
  | .range => .reject
  | .nan rest =>
    match timescaleSfx rest with
    | none => .reject
    | some _ => .undefined
  | .val neg v rest =>
    if neg = true ∧ v ≠ 0 then .reject
    else
      match timescaleSfx rest with
      | none => .reject
      | some scale => split v scale

/-- src/util.c:151-195 `parse_ts`. -/
def parseTs (s : List Nat) : Out :=
  if strspn s floatAccept > strspn s intAccept then parseFloat s
  else
    match Time.parseTs (fun _ => none) s with
    | none => .reject
    | some t => .ok t

end Strace.Tsf
