import Verif.Tsf.Model
/-!
# Decimal numbers

A number as a user writes it, with a fraction or an exponent, and what it denotes.
-/
namespace Strace.Tsf.Spec

/-- A decimal digit, from "0" to "9". -/
def Digit (c : Nat) : Prop := ∃ d, d < 10 ∧ c = 48 + d

/-- A number: its sign, the digits before the point, those after it if there is a point, and the exponent if there is one. -/
structure Decimal where
  sign : List Nat
  whole : List Nat
  frac : Option (List Nat)
  exp : Option (Nat × List Nat × List Nat)

namespace Decimal
variable (x : Decimal)

/-- The digits after the point. -/
def fracDigits : List Nat := x.frac.getD []

/-- The text. -/
def text : List Nat :=
  x.sign ++ x.whole ++
  (match x.frac with
   | none => []
   | some f => 46 :: f) ++
  (match x.exp with
   | none => []
   | some (e, s, d) => e :: s ++ d)

/-- A number is well-formed: a sign is "+", "-" or nothing, there is a digit before or after the point, and an exponent, which
begins with "e" or "E", has a digit. -/
def Ok : Prop :=
  (x.sign = [] ∨ x.sign = [43] ∨ x.sign = [45]) ∧
  (∀ c ∈ x.whole, Digit c) ∧ (∀ c ∈ x.fracDigits, Digit c) ∧ x.whole ++ x.fracDigits ≠ [] ∧
  ∀ e s d, x.exp = some (e, s, d) →
    (e = 101 ∨ e = 69) ∧ (s = [] ∨ s = [43] ∨ s = [45]) ∧ (∀ c ∈ d, Digit c) ∧ d ≠ []

end Decimal

/-- The number that digits denote. -/
def denotes : List Nat → Nat
  | [] => 0
  | c :: l => (c - 48) * 10 ^ l.length + denotes l

namespace Decimal
variable (x : Decimal)

/-- The value without its sign is `num / den`: the digits, divided by ten for each digit after the point, times ten to the
exponent. -/
def num : Nat :=
  denotes (x.whole ++ x.fracDigits) *
  (match x.exp with
   | none => 1
   | some (_, s, d) => if s = [45] then 1 else 10 ^ denotes d)

def den : Nat :=
  10 ^ x.fracDigits.length *
  (match x.exp with
   | none => 1
   | some (_, s, d) => if s = [45] then 10 ^ denotes d else 1)

end Decimal

/-- The units, and the nanoseconds that each of them has: s, ms, us, ns in any case; microseconds without a unit. -/
def unit : List Nat → Option Nat
  | [] => some 1000
  | [a] => if a = 115 ∨ a = 83 then some 1000000000 else none
  | [a, b] =>
    if b = 115 ∨ b = 83 then
      if a = 109 ∨ a = 77 then some 1000000
      else if a = 117 ∨ a = 85 then some 1000
      else if a = 110 ∨ a = 78 then some 1
      else none
    else none
  | _ => none

/-- The time is in nanoseconds, less than a second of them. -/
def Good (t : Time.Ts) (n : Nat) : Prop :=
  ∃ sec nsec : Nat, t = ⟨sec, nsec⟩ ∧ nsec < 1000000000 ∧ n = sec * 1000000000 + nsec

end Strace.Tsf.Spec
