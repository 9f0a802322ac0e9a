/-!
# Printing arrays with their elements: src/util.c (print_array_ex)

`Verif/Show/Array.lean` models the same function with elements that are only numbered.  Here an element is fetched and handed to a
function that prints it, with a state of its own (the `opaque_data` of the source), and indices in front of elements are modelled.
-/
namespace Strace.Arr

inductive Tok (α : Type)
  | null
  /-- `[` -/
  | opened
  /-- `]` -/
  | closed
  /-- `, ` -/
  | next
  /-- `...` -/
  | more
  /-- `[` index `] = ` -/
  | index (i : Nat)
  | elem (a : α)
  | addr (a : Nat)
  /-- the address as a comment -/
  | comment (a : Nat)
  /-- `???` -/
  | unavailable
  deriving DecidableEq, Repr

/-- where the elements come from: the memory of the tracee, by `tfetch_mem_func`, or the memory of strace -/
inductive Src (β : Type)
  | tracee (f : Nat → Option β)
  | own (f : Nat → β)

/-- the element at an address -/
def Src.get {β : Type} (s : Src β) (a : Nat) : Option β :=
  match s with
  | .tracee f => f a
  | .own f => some (f a)

/-- whether `tfetch_mem_func` is null -/
def Src.isOwn {β : Type} : Src β → Bool
  | .tracee _ => false
  | .own _ => true

/-- what is set for an array -/
structure Cfg where
  /-- `max_strlen` if abbreviating -/
  limit : Option Nat
  /-- PAF_ARRAY_TRUNCATED -/
  trunc : Bool
  /-- PAF_PRINT_INDICES -/
  indices : Bool

/-- what is printed in front of an element: the separator or the bracket, src/util.c:1926-1927 and 1944-1945 -/
def before {α : Type} (first : Bool) : List (Tok α) := if first = true then [.opened] else [.next]

/-- the index in front of an element, src/util.c:1954-1965; how the number is written is not modelled -/
def index {α : Type} (c : Cfg) (i : Nat) : List (Tok α) := if c.indices = true then [.index i] else []

/-- the loop, src/util.c:1925-1977: what is printed, `cur`, `truncated` and the state of the printing function at the end.
`print` gives what it prints of an element, its new state, and whether to go on. -/
def loop {α β σ : Type} (c : Cfg) (src : Src β) (print : σ → β → α × σ × Bool) (start es stop abbrevEnd : Nat) :
    Nat → Nat → Nat → σ → Option (List (Tok α) × Nat × Bool × σ)
  | 0, _, _, _ => none
  | fuel + 1, cur, idx, s =>
    if cur < stop then
      match src.get cur with
      | none => some (if cur = start then ([.addr cur], cur, false, s) else ([.next, .more, .comment cur], cur, true, s))
      | some b =>
        if cur ≥ abbrevEnd then some (before (decide (cur = start)) ++ [.more], stop, true, s)
        else if (print s b).2.2 = false then
          some (before (decide (cur = start)) ++ index c idx ++ [.elem (print s b).1], stop, false, (print s b).2.1)
        else
          (loop c src print start es stop abbrevEnd fuel ((cur + es) % 2 ^ 64) (idx + 1) (print s b).2.1).map fun r =>
            (before (decide (cur = start)) ++ index c idx ++ .elem (print s b).1 :: r.1, r.2)
    else some ([], cur, false, s)

/-- after the loop, src/util.c:1979-1988 -/
def tail {α : Type} (start : Nat) (own trunc : Bool) (cur : Nat) (truncated : Bool) : List (Tok α) :=
  if cur ≠ start ∨ own = true then
    (if trunc = true ∧ truncated = false then (if cur ≠ start then [.next] else []) ++ [.more] else []) ++ [.closed]
  else []

/-- `sequence_truncation_needed`, src/util.c:2082-2086 (its argument is an `unsigned int`), and `abbrev_end`,
src/util.c:1917-1919 -/
def abbrevEnd (limit : Option Nat) (start n es stop : Nat) : Nat :=
  match limit with
  | some m => if n % 2 ^ 32 > m then (start + es * m % 2 ^ 64) % 2 ^ 64 else stop
  | none => stop

/-- `print_array_ex`, src/util.c:1880-1991: what is printed, the result, and the state of the printing function -/
def printArray {α β σ : Type} (c : Cfg) (src : Src β) (print : σ → β → α × σ × Bool) (fuel start n es : Nat) (s : σ) :
    Option (List (Tok α) × Bool × σ) :=
  if start = 0 then some ([.null], false, s)
  else if n = 0 then some ([.opened] ++ (if c.trunc = true then [.more] else []) ++ [.closed], false, s)
  else
    let size := n * es % 2 ^ 64
    let stop := (start + size) % 2 ^ 64
    if stop ≤ start ∨ size / es ≠ n then
      some ([if src.isOwn = true then .unavailable else .addr start], false, s)
    else
      (loop c src print start es stop (abbrevEnd c.limit start n es stop) fuel start 0 s).map fun r =>
        (r.1 ++ tail start src.isOwn c.trunc r.2.1 r.2.2.1, decide (r.2.1 ≥ stop), r.2.2.2)

end Strace.Arr
