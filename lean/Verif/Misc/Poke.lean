import Verif.Misc.Lists
import Verif.Misc.Rules
/-!
# Data to poke: src/poke.c

List heads are kept in an array that grows; the head of rule `i` is at address `base + i` (addresses count list items).
-/
namespace Strace.Misc

/-- `struct poke_payload`, src/poke.h -/
structure Payload where
  isEnter : Bool
  argNo : Nat
  data : List Nat
deriving Repr, DecidableEq

/-- src/poke.c:12-14, with the memory of list items and the payload at each item's address -/
structure Pokes where
  heap : Heap
  pay : Nat → Payload
  base : Nat
  cap : Nat
  size : Nat

/-- `expand_poke_data_vec`, src/poke.c:16-25: `xgrowarray` puts the array at `nb` with `nc` elements; the old elements are copied,
the new ones are zero.  The old memory, if the array moved, keeps its content here. -/
def expandPokes (nb nc : Nat) (p : Pokes) : Pokes :=
  { p with
    base := nb, cap := nc
    heap :=
      { next := fun a => if nb ≤ a ∧ a < nb + p.cap then p.heap.next (a - nb + p.base)
          else if nb + p.cap ≤ a ∧ a < nb + nc then 0 else p.heap.next a
        prev := fun a => if nb ≤ a ∧ a < nb + p.cap then p.heap.prev (a - nb + p.base)
          else if nb + p.cap ≤ a ∧ a < nb + nc then 0 else p.heap.prev a } }

/-- src/xmalloc.c:93-112: 8 list heads of 16 bytes at first, then half as many again and one more; `xgrowarray` -/
def grows (c : Nat) : Nat := if c = 0 then 8 else c + (c / 2 + 1)

/-- src/poke.c:35-36; `place` gives the address for a capacity, `grow` the new capacity -/
def makeRoom (place grow : Nat → Nat) (p : Pokes) : Pokes :=
  if p.size = p.cap then expandPokes (place p.cap) (grow p.cap) p else p

/-- `alloc_poke_data`, src/poke.c:27-42 -/
def allocPokes (place grow : Nat → Nat) (p : Pokes) : Res (Nat × Pokes) :=
  if p.size % 2 ^ 16 < p.size then .die
  else
    let q := makeRoom place grow p
    .ok (p.size % 2 ^ 16, { q with size := q.size + 1, heap := listInit q.heap (q.base + p.size % 2 ^ 16) })

/-- the test in `poke_add`, src/poke.c:49-50 -/
def samePlace (a b : Payload) : Bool := a.isEnter = b.isEnter && a.argNo = b.argNo

/-- `poke_add`, src/poke.c:44-56, for a payload at address `x`; a duplicate makes strace exit (src/filter_qualify.c:207).
`bad` if the loop does not end. -/
def pokeAdd (fuel idx x : Nat) (y : Payload) (p : Pokes) : Res Pokes :=
  match listForeach p.heap (p.base + idx) fuel with
  | none => .bad
  | some xs =>
    if xs.any fun i => samePlace (p.pay i) y then .die
    else .ok { p with heap := listInsert p.heap (p.base + idx) x, pay := fun a => if a = x then y else p.pay a }

/-- the tokens of the poke expressions of one rule, src/filter_qualify.c:178-209; each payload with the address `xcalloc` gives -/
def pokeAll (fuel idx : Nat) : List (Nat × Payload) → Pokes → Res Pokes
  | [], p => .ok p
  | y :: ys, p => (pokeAdd fuel idx y.1 y.2 p).bind fun q => pokeAll fuel idx ys q

/-- all rules that poke, in turn; the rule with index 65535 has only one of `poke_enter=` and `poke_exit=` -/
def pokeRules (place grow : Nat → Nat) (fuel : Nat) : List (List (Nat × Payload)) → Pokes → Res Pokes
  | [], p => .ok p
  | r :: rs, p => (allocPokes place grow p).bind fun q => (pokeAll fuel q.1 r q.2).bind fun q' => pokeRules place grow fuel rs q'

/-- the payloads `poke_tcb` goes through, src/poke.c:69-70, at entering or leaving a call -/
def pokesOf (fuel idx : Nat) (isEnter : Bool) (p : Pokes) : Res (List Payload) :=
  if idx ≥ p.size then .die
  else match listForeach p.heap (p.base + idx) fuel with
    | none => .bad
    | some xs => .ok ((xs.map p.pay).filter fun y => y.isEnter = isEnter)

/-- nothing allocated; the content of memory is arbitrary -/
def noPokes (h : Heap) (pay : Nat → Payload) : Pokes := { heap := h, pay := pay, base := 0, cap := 0, size := 0 }

end Strace.Misc
