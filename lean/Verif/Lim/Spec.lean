import Verif.Lim.Model

/-!
# Reading limits, and what the calls about them are asked and answer
-/
namespace Strace.Lim.Spec

open Strace.Lim

/-- A digit. -/
def isDigit (c : Nat) : Bool := decide (48 ≤ c ∧ c ≤ 57)

/-- The number that digits denote. -/
def digits (l : List Nat) : Nat := l.foldl (fun a c => a * 10 + (c - 48)) 0

/-- Reading a limit of `w` bytes: the name of infinity (which is the largest number), a number, or a product with 1024. -/
def read (w : Nat) (l : List Nat) : Option Nat :=
  if l = "RLIM64_INFINITY".toList.map Char.toNat ∧ w = 8 then some (2 ^ 64 - 1)
  else if l = "RLIM_INFINITY".toList.map Char.toNat ∧ w = 4 then some (2 ^ 32 - 1)
  else if l.takeWhile isDigit = [] then none
  else if l.dropWhile isDigit = [] then some (digits l)
  else if l.dropWhile isDigit = "*1024".toList.map Char.toNat then some (digits (l.takeWhile isDigit) * 1024)
  else none

/-- Reading a limit that may have a comment: the number before it, with which the comment has to agree. -/
def readCommented (w : Nat) (l : List Nat) : Option Nat :=
  if l.dropWhile isDigit = [] then read w l
  else
    let c := ((l.dropWhile isDigit).drop 4).take ((l.dropWhile isDigit).length - 7)
    if l.dropWhile isDigit = " /* ".toList.map Char.toNat ++ c ++ " */".toList.map Char.toNat
        ∧ read w c = read w (l.takeWhile isDigit) then read w (l.takeWhile isDigit)
    else none

/-- Reading a limit that is printed in a style. -/
def readStyle : Style → Nat → List Nat → Option Nat
  | .verbose, w, l => readCommented w l
  | .raw, _, l => if l ≠ [] ∧ l.all isDigit = true then some (digits l) else none
  | .abbrev_, w, l => read w l

/-- The number of `w` bytes at address `a`. -/
def word (m : Nat → Option Nat) (a w : Nat) : Nat := ((List.range w).map fun k => (m (a + k)).getD 0 * 256 ^ k).sum

/-- The `n` bytes at `p` can be read. -/
def Readable (m : Nat → Option Nat) (p n : Nat) : Prop := p ≠ 0 ∧ ∀ i, i < n → (m (p + i)).isSome

/-- The two limits of `w` bytes at `a` are what a reader finds, or the address is shown if they cannot be read. -/
def Limits (st : Style) (m : Nat → Option Nat) (a w : Nat) (t : Tok) : Prop :=
  (Readable m a (2 * w) →
    ∃ x y, t = .limits x y ∧ readStyle st w x = some (word m a w) ∧ readStyle st w y = some (word m (a + w) w))
  ∧ (¬ Readable m a (2 * w) → t = .addr a)

/-- `v` is what a parameter of type `int` is if the register holds `a`. -/
def IsInt (a : Nat) (v : Int) : Prop := -2 ^ 31 ≤ v ∧ v < 2 ^ 31 ∧ ∃ q : Int, (a : Int) = v + q * 2 ^ 32

end Strace.Lim.Spec
