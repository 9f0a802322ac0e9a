/-
Model of src/string_to_uint.c.  Characters are their codes (`Nat`), a C string is the list of its
characters before the terminating NUL.
-/
namespace Strace.StringToUint

/-- `isspace` in the C locale, used by `strtoll` (libc contract). -/
def isSpace (c : Nat) : Bool := c == 32 || (9 ≤ c && c ≤ 13)

/-- a decimal digit -/
def isDigit (c : Nat) : Bool := 48 ≤ c && c ≤ 57

/-- LLONG_MAX -/
def llongMax : Nat := 2 ^ 63 - 1

/-- `strtoll` skips leading blanks (libc contract). -/
def skipSpace : List Nat → List Nat
  | [] => []
  | c :: cs => if isSpace c then skipSpace cs else c :: cs

/-- The digit loop of `strtoll` in base 10: accumulated value, unread rest. -/
def digits : Nat → List Nat → Nat × List Nat
  | acc, [] => (acc, [])
  | acc, c :: cs => if isDigit c then digits (acc * 10 + (c - 48)) cs else (acc, c :: cs)

/-- Result of `strtoll`: the value (saturated), the rest of the text after the
number, whether `end != str` and whether `errno == ERANGE`. -/
structure Strtoll where
  val : Int
  rest : List Nat
  converted : Bool
  erange : Bool

/-- `strtoll` takes one optional sign (libc contract); `true` is '-'. -/
def splitSign (s : List Nat) : Bool × List Nat :=
  match s with
  | [] => (false, [])
  | c :: t => if c = 43 then (false, t) else if c = 45 then (true, t) else (false, c :: t)

/-- the conversion proper: `str` is the whole text (returned as `end` when there are no digits),
`body` the text after blanks and sign -/
def convert (str : List Nat) (neg : Bool) (body : List Nat) : Strtoll :=
  match body with
  | [] => ⟨0, str, false, false⟩
  | c :: _ =>
    if isDigit c then
      let m := (digits 0 body).1
      let rest := (digits 0 body).2
      if neg then
        if m ≤ 2 ^ 63 then ⟨-(m : Int), rest, true, false⟩ else ⟨-(2 ^ 63 : Int), rest, true, true⟩
      else
        if m ≤ llongMax then ⟨(m : Int), rest, true, false⟩ else ⟨(llongMax : Int), rest, true, true⟩
    else ⟨0, str, false, false⟩

/-- `strtoll(str, &end, 10)` as specified by ISO C and implemented by glibc (libc contract):
blanks, one optional sign, digits; no digits means no conversion and `end = str`; out-of-range
values saturate and set ERANGE. -/
def strtoll (str : List Nat) : Strtoll :=
  convert str (splitSign (skipSpace str)).1 (splitSign (skipSpace str)).2

/-- src/string_to_uint.c:36 `*end && (!accepted_ending || !strchr(accepted_ending, *end))` -/
def badEnding (rest : List Nat) (ending : Option (List Nat)) : Bool :=
  match rest with
  | [] => false
  | c :: _ => match ending with
    | none => true
    | some l => !l.contains c

/-- src/string_to_uint.c:18-43 `string_to_uint_ex`.  `none` is the return value -1; `some (v, e)` is
return value `v` with `*endptr = e` (the unread suffix).  `ending = none` models a NULL
`accepted_ending`. -/
def stringToUintEx (str : List Nat) (maxVal : Nat) (ending : Option (List Nat)) :
    Option (Int × List Nat) :=
  if str.isEmpty then none
  else
    let r := strtoll str
    if !r.converted || r.val < 0 || r.val.toNat > maxVal || (r.val == (llongMax : Int) && r.erange)
    then none
    else
      if badEnding r.rest ending then none else some (r.val, r.rest)

/-- src/string_to_uint.h `string_to_uint_upto`. -/
def stringToUintUpto (str : List Nat) (maxVal : Nat) : Option Int :=
  (stringToUintEx str maxVal none).map (·.1)

end Strace.StringToUint
