/-
Model of src/number_set.c.  A slot is a 32-bit word (`BitVec 32`).  `unsigned int` numbers are `Nat`
(every operation here only divides them by 32, so nothing can wrap).
Simplification: `nslots` is the length of `vec` (the code keeps the two equal: number_set.c:47-50);
allocation failure ends the program and is not modelled.
-/
namespace Strace.NumberSet

/-- src/number_set.c:24-28 `struct number_set` (`neg` is the field `not`). -/
structure NSet where
  vec : List (BitVec 32)
  neg : Bool
deriving Repr, DecidableEq

/-- src/number_set.c:134-138: a zeroed `struct number_set`. -/
def empty : NSet := ⟨[], false⟩

/-- src/number_set.c:30-34 `number_setbit`. -/
def setbit (i : Nat) (vec : List (BitVec 32)) : List (BitVec 32) :=
  vec.modify (i / 32) (fun x => x ||| (1#32 <<< (i % 32)))

/-- src/number_set.c:36-40 `number_isset`; `none` is an out-of-bounds read (undefined behaviour). -/
def isset (i : Nat) (vec : List (BitVec 32)) : Option Bool :=
  (vec[i / 32]?).map fun x => (x &&& (1#32 <<< (i % 32))) != 0#32

/-- src/number_set.c:42-51 `reallocate_number_set`. -/
def realloc (s : NSet) (newSlots : Nat) : NSet :=
  if newSlots ≤ s.vec.length then s
  else { s with vec := s.vec ++ List.replicate (newSlots - s.vec.length) 0#32 }

/-- src/number_set.c:68-73 `is_number_in_set` for a non-NULL set.  `none` is undefined behaviour.
Note the C precedence: `set && (A ^ not)`. -/
def isNumberInSet (n : Nat) (s : NSet) : Option Bool :=
  if n / 32 < s.vec.length then (isset n s.vec).map (fun b => b ^^ s.neg) else some (false ^^ s.neg)

/-- src/number_set.c:102-107 `add_number_to_set`. -/
def addNumber (n : Nat) (s : NSet) : NSet :=
  let s' := realloc s (n / 32 + 1)
  { s' with vec := setbit n s'.vec }

/-- src/number_set.c:116-125, one element of `clear_number_set_array`. -/
def clear (s : NSet) : NSet := ⟨List.replicate s.vec.length 0#32, false⟩

/-- src/number_set.c:127-132, one element of `invert_number_set_array`. -/
def invert (s : NSet) : NSet := { s with neg := !s.neg }

/-- src/defs.h:1931-1948 `popcount32`, one word: number of set bits (`__builtin_popcount`). -/
def popcount (x : BitVec 32) : Nat := ((List.range 32).filter (fun i => x.getLsbD i)).length

/-- src/defs.h:1931-1948 `popcount32`. -/
def popcount32 (v : List (BitVec 32)) : Nat := v.foldl (fun c x => c + popcount x) 0

/-- src/number_set.c:83-88 `is_complete_set`, non-NULL set. -/
def isComplete (s : NSet) (max : Nat) : Bool :=
  (s.neg && s.vec.length == 0) || popcount32 s.vec == max

/-- src/number_set.c:61-66 `number_set_array_is_empty`, non-NULL array, one element. -/
def isEmptySet (s : NSet) : Bool := !(s.vec.length != 0 || s.neg)

/-- The operations of the module, as issued by its callers. -/
inductive Op
  | add (n : Nat)
  | invert
  | clear
deriving Repr, DecidableEq

def apply (s : NSet) : Op → NSet
  | .add n => addNumber n s
  | .invert => invert s
  | .clear => clear s

/-- the state after a history -/
def run (h : List Op) : NSet := h.foldl apply empty

end Strace.NumberSet
