import Verif.Tracee.Poll
/-!
# What the result text of poll should say

Independent of the model: the number of bytes of the buffer that elements may use is 997, so that there is always room for
an address, the closing bracket and an ellipsis.
-/
namespace Strace.Tracee

/-- `{fd=3, revents=POLLIN}` -/
def entryText (flags : Nat → List Char) (e : Pfd) : List Char :=
  "{fd=".toList ++ (toString e.fd).toList ++ ", revents=".toList ++ flags e.revents ++ "}".toList

/-- the elements with events -/
def ready (es : List Pfd) : List Pfd := es.filter fun e => e.revents != 0

/-- items in brackets; nothing if there are none -/
def bracketed (items : List (List Char)) : List Char :=
  if items.isEmpty then [] else '[' :: List.intercalate ", ".toList items ++ [']']

/-- what is shown if `k` elements are: the rest as dots, or the address `bad` that could not be read -/
def itemsShown (flags : Nat → List Char) (es : List Pfd) (k : Nat) (bad : Option Nat) : List (List Char) :=
  ((ready es).take k).map (entryText flags) ++
    if k < (ready es).length then ["...".toList]
    else match bad with
      | none => []
      | some a => [hexText a]

/-- the time left -/
def leftText (text : List Char) (left : Option (List Char)) : List Char :=
  match left with
  | none => []
  | some t =>
    if text.length + t.length < 1016 then (if text.isEmpty then [] else ", ".toList) ++ "left ".toList ++ t
    else ", ...".toList

/-- nothing is shown for an empty text -/
def auxOf (t : List Char) : Aux := if t.isEmpty then .nothing else .text t

/-- the array of `n` elements at an address, of which the first ones can be read; `bad` is the address of the first that
cannot -/
structure Holds (mem : Nat → Option Pfd) (start n : Nat) (es : List Pfd) (bad : Option Nat) : Prop where
  le : es.length ≤ n
  read : ∀ i (h : i < es.length), mem (start + 8 * i) = some es[i]
  unread : es.length < n → mem (start + 8 * es.length) = none
  bad_eq : bad = if es.length < n then some (start + 8 * es.length) else none

end Strace.Tracee
