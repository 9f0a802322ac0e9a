/-!
# Doubly linked lists: src/list.h

Memory is a pair of functions from addresses to addresses; 0 is NULL.
-/
namespace Strace.Misc

/-- `struct list_item`, src/list.h:92-95, for every address -/
structure Heap where
  next : Nat → Nat
  prev : Nat → Nat

def setNext (h : Heap) (a v : Nat) : Heap := { h with next := fun x => if x = a then v else h.next x }
def setPrev (h : Heap) (a v : Nat) : Heap := { h with prev := fun x => if x = a then v else h.prev x }

/-- src/list.h:105-110 -/
def listInit (h : Heap) (l : Nat) : Heap := setNext (setPrev h l l) l l

/-- src/list.h:113-124 -/
def listIsEmpty (h : Heap) (l : Nat) : Bool :=
  (h.next l = l && h.prev l = l) || (h.next l = 0 && h.prev l = 0)

/-- src/list.h:175-182 -/
def listInsert (h : Heap) (head item : Nat) : Heap :=
  let h1 := setNext h item (h.next head)
  let h2 := setPrev h1 item head
  let h3 := setPrev h2 (h2.next head) item
  setNext h3 head item

/-- src/list.h:188-195 -/
def listAppend (h : Heap) (head item : Nat) : Heap :=
  let h1 := setNext h item head
  let h2 := setPrev h1 item (h1.prev head)
  let h3 := setNext h2 (h2.prev head) item
  setPrev h3 head item

/-- src/list.h:203-214 -/
def listRemove (h : Heap) (item : Nat) : Heap × Bool :=
  if h.next item = 0 || h.prev item = 0 || listIsEmpty h item then (h, false)
  else
    let h1 := setNext h (h.prev item) (h.next item)
    let h2 := setPrev h1 (h1.next item) (h1.prev item)
    (setNext (setPrev h2 item item) item item, true)

/-- src/list.h:223-232; the second component is the pointer returned -/
def listRemoveTail (h : Heap) (head : Nat) : Heap × Nat :=
  if listIsEmpty h head then (h, 0)
  else if h.prev head = 0 then (h, 0)
  else ((listRemove h (h.prev head)).1, h.prev head)

/-- src/list.h:241-250 -/
def listRemoveHead (h : Heap) (head : Nat) : Heap × Nat :=
  if listIsEmpty h head then (h, 0)
  else if h.next head = 0 then (h, 0)
  else ((listRemove h (h.next head)).1, h.next head)

/-- src/list.h:259-272 -/
def listReplace (h : Heap) (old new : Nat) : Heap × Bool :=
  if h.next old = 0 || h.prev old = 0 || listIsEmpty h old then (h, false)
  else
    let h1 := setNext h new (h.next old)
    let h2 := setPrev h1 new (h1.prev old)
    let h3 := setNext h2 (h2.prev old) new
    let h4 := setPrev h3 (h3.next old) new
    (setNext (setPrev h4 old old) old old, true)

/-- `list_foreach`, src/list.h:282-284: the items visited from an address on; `none` if the head is not met -/
def visit (h : Heap) (head : Nat) : Nat → Nat → Option (List Nat)
  | 0, _ => none
  | fuel + 1, a => if a = head then some [] else (visit h head fuel (h.next a)).map (a :: ·)

/-- `list_foreach` -/
def listForeach (h : Heap) (head fuel : Nat) : Option (List Nat) := visit h head fuel (h.next head)

/-- `list_foreach_safe`, src/list.h:295-298, with a body `f` that changes memory: the items visited and the memory after -/
def visitSafe (f : Nat → Heap → Heap) (head : Nat) : Nat → Nat → Nat → Heap → Option (List Nat × Heap)
  | 0, _, _, _ => none
  | fuel + 1, var, tmp, h =>
    if var = head then some ([], h)
    else (visitSafe f head fuel tmp ((f var h).next tmp) (f var h)).map fun r => (var :: r.1, r.2)

/-- `list_foreach_safe` -/
def listForeachSafe (f : Nat → Heap → Heap) (h : Heap) (head fuel : Nat) : Option (List Nat × Heap) :=
  visitSafe f head fuel (h.next head) (h.next (h.next head)) h

/-- an operation on lists -/
inductive LOp where
  | init (a : Nat)
  | insert (head item : Nat)
  | append (head item : Nat)
  | remove (item : Nat)
  | removeHead (head : Nat)
  | removeTail (head : Nat)
  | replace (old new : Nat)
deriving Repr, DecidableEq

/-- an operation, with its result as a number (0 if it has none) -/
def runOp (h : Heap) : LOp → Heap × Nat
  | .init a => (listInit h a, 0)
  | .insert a x => (listInsert h a x, 0)
  | .append a x => (listAppend h a x, 0)
  | .remove x => ((listRemove h x).1, if (listRemove h x).2 then 1 else 0)
  | .removeHead a => listRemoveHead h a
  | .removeTail a => listRemoveTail h a
  | .replace a b => ((listReplace h a b).1, if (listReplace h a b).2 then 1 else 0)

/-- a sequence of operations, with the results -/
def runOps : Heap → List LOp → Heap × List Nat
  | h, [] => (h, [])
  | h, op :: ops => ((runOps (runOp h op).1 ops).1, (runOp h op).2 :: (runOps (runOp h op).1 ops).2)

end Strace.Misc
