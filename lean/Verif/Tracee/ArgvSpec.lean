import Verif.Tracee.Argv
/-!
# What the arguments of execve should show

Independent of the model.
-/
namespace Strace.Tracee

/-- how an array of pointers ends: with NULL, or at an address that cannot be read -/
inductive Ending
  | null
  | fault (a : Nat)
  deriving DecidableEq, Repr

/-- the pointers `ws` are at an address, one after the other, and the array ends after them.  The address after the last
one of the address space is 0 or more and cannot be the next. -/
structure Vector (mem : Nat → Option Nat) (w a : Nat) (ws : List Nat) (e : Ending) : Prop where
  below : ∀ i, i < ws.length → a + w * i < 2 ^ 64
  read : ∀ i (h : i < ws.length), mem (a + w * i) = some ws[i] ∧ ws[i] ≠ 0
  ends : match e with
    | .null => a + w * ws.length < 2 ^ 64 ∧ mem (a + w * ws.length) = some 0
    | .fault b => b = (a + w * ws.length) % 2 ^ 64 ∧ (2 ^ 64 ≤ a + w * ws.length ∨ mem (a + w * ws.length) = none)

/-- how many are shown -/
def shownCount (limit : Option Nat) (ws : List Nat) : Nat :=
  match limit with
  | none => ws.length
  | some m => min m ws.length

/-- the items: strings, then dots if some are left out or the end was not found -/
def argItems (limit : Option Nat) (ws : List Nat) (e : Ending) : List (List ATok) :=
  (ws.take (shownCount limit ws)).map (fun p => [.str p]) ++
    if shownCount limit ws < ws.length then [[.more]]
    else match e with
      | .null => []
      | .fault b => [[.more, .comment b]]

/-- items in brackets with commas between them; only the address if not even the first pointer can be read -/
def argText (limit : Option Nat) (a : Nat) (ws : List Nat) (e : Ending) : List ATok :=
  if ws = [] ∧ e ≠ .null then [.addr a]
  else .opened :: List.intercalate [.next] (argItems limit ws e) ++ [.closed]

/-- the number of variables -/
def countText (a : Nat) (ws : List Nat) (e : Ending) : List ATok :=
  if ws = [] ∧ e ≠ .null then [.addr a] else [.addr a, .count ws.length (decide (e ≠ .null))]

end Strace.Tracee
