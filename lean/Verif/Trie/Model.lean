/-
Model of src/trie.c.  Words are `Nat` below 2^64.  `none` in a result is an access outside an
allocated block, a block taken for one of the other kind, or a loop that never ends; memory allocation
is assumed to succeed (strace exits otherwise).
-/
namespace Strace.Trie

/-- the geometry part of `struct trie`, src/trie.h:36-69 -/
structure Geo where
  keySize : Nat
  itemLg : Nat
  nodeBits : Nat
  dataBits : Nat
deriving Repr, DecidableEq

/-- `t->max_depth`, src/trie.c:91-92 -/
def maxDepth (g : Geo) : Nat := (g.keySize - g.dataBits + g.nodeBits - 1) / g.nodeBits

/-- `ptr_sz_lg`, src/trie.c:21, on a 64-bit host; on a 32-bit host it is 5 and cancels out in the same way -/
def ptrLg : Nat := 6

/-- `trie_get_node_size`, src/trie.c:26-38.  The `uint8_t` values do not wrap: the last case is only
reached when there are two node levels, so `node_key_bits < 64`. -/
def nodeSize (g : Geo) (depth : Nat) : Nat :=
  if depth = maxDepth g then g.dataBits + g.itemLg
  else if depth + 1 = maxDepth g then (g.keySize - g.dataBits - 1) % g.nodeBits + 1 + ptrLg
  else g.nodeBits + ptrLg

/-- `trie_get_node_bit_offs`, src/trie.c:44-62 -/
def nodeBitOffs (g : Geo) (depth : Nat) : Nat :=
  if depth = maxDepth g then 0
  else if depth + 1 = maxDepth g then g.dataBits
  else g.dataBits + (nodeSize g (maxDepth g - 1) - ptrLg) + (maxDepth g - depth - 2) * g.nodeBits

/-- a node pointer: NULL, a data block of 64-bit words, or an array of node pointers -/
inductive Tree
  | null
  | data (w : List Nat)
  | node (ch : List Tree)

/-- `struct trie` -/
structure Trie where
  geo : Geo
  empty : Nat
  fill : Nat
  root : Tree

/-- the loop of src/trie.c:83-84, from `i` on -/
def fillLoop (lg : Nat) : Nat → Nat → Nat → Nat
  | 0, _, f => f
  | n + 1, i, f => fillLoop lg n (i + 1) (f ||| f * 2 ^ (2 ^ (lg + i)) % 2 ^ 64)

/-- `trie_create`, src/trie.c:64-95 -/
def create (keySize itemLg nodeBits dataBits emptyValue : Nat) : Option Trie :=
  if itemLg > 6 then none
  else if keySize > 64 then none
  else if nodeBits < 1 then none
  else if dataBits < 1 ∨ dataBits > keySize then none
  else some
    { geo := ⟨keySize, itemLg, nodeBits, dataBits⟩
      empty := emptyValue % 2 ^ (2 ^ itemLg)
      fill := fillLoop itemLg (6 - itemLg) 0 (emptyValue % 2 ^ (2 ^ itemLg))
      root := .null }

/-- `count` of `trie_create_data_block`, src/trie.c:99-103.  Exact while the shift is defined
(`dataBits + itemLg < 38`, blocks below 32 GiB). -/
def blockWords (g : Geo) : Nat := 2 ^ (max 6 (g.dataBits + g.itemLg) - 6)

/-- `trie_create_data_block`, src/trie.c:97-111 -/
def newBlock (t : Trie) : List Nat := List.replicate (blockWords t.geo) t.fill

/-- pointers in a node made by `xcalloc(BIT64(sz), 1)`, src/trie.c:132.  Exact while the shift is defined
(at most 57 key bits per node). -/
def nodePtrs (g : Geo) (depth : Nat) : Nat := 2 ^ nodeSize g depth / 8

/-- `pos` of src/trie.c:138 -/
def childPos (g : Geo) (depth key : Nat) : Nat :=
  key / 2 ^ nodeBitOffs g depth % 2 ^ (nodeSize g depth - ptrLg)

/-- the loop of `trie_get_node`, src/trie.c:121-140, with `auto_create` false; the first argument is
`max_depth - cur_depth`.  `some none` is NULL. -/
def findBlock (g : Geo) (key : Nat) : Nat → Tree → Option (Option (List Nat))
  | _, .null => some none
  | 0, .data w => some (some w)
  | 0, .node _ => none
  | _ + 1, .data _ => none
  | r + 1, .node ch =>
    match ch[childPos g (maxDepth g - (r + 1)) key]? with
    | none => none
    | some c => findBlock g key r c

/-- the pointer array of an inner node, created if it is missing (src/trie.c:125-133) -/
def kidsOf (g : Geo) (depth : Nat) : Tree → Option (List Tree)
  | .null => some (List.replicate (nodePtrs g depth) .null)
  | .node ch => some ch
  | .data _ => none

/-- the words of a data block, created if it is missing (src/trie.c:125-133) -/
def wordsOf (t : Trie) : Tree → Option (List Nat)
  | .null => some (newBlock t)
  | .data w => some w
  | .node _ => none

/-- the loop of `trie_get_node` with `auto_create` true, followed by `f` on the data block -/
def updBlock (t : Trie) (key : Nat) (f : List Nat → Option (List Nat)) : Nat → Tree → Option Tree
  | 0, tr =>
    match wordsOf t tr with
    | none => none
    | some w =>
      match f w with
      | none => none
      | some w' => some (.data w')
  | r + 1, tr =>
    match kidsOf t.geo (maxDepth t.geo - (r + 1)) tr with
    | none => none
    | some ch =>
      match ch[childPos t.geo (maxDepth t.geo - (r + 1)) key]? with
      | none => none
      | some c =>
        match updBlock t key f r c with
        | none => none
        | some c' => some (.node (ch.set (childPos t.geo (maxDepth t.geo - (r + 1)) key) c'))

/-- `trie_data_block_calc_pos`, src/trie.c:145-164: word, mask, offset -/
def calcPos (g : Geo) (key : Nat) : Nat × Nat × Nat :=
  if g.itemLg = 6 then (key % 2 ^ g.dataBits / 2 ^ (6 - g.itemLg), 2 ^ 64 - 1, 0)
  else
    (key % 2 ^ g.dataBits / 2 ^ (6 - g.itemLg),
     (2 ^ (2 ^ g.itemLg) - 1) * 2 ^ (key % 2 ^ (6 - g.itemLg) * 2 ^ g.itemLg) % 2 ^ 64,
     key % 2 ^ (6 - g.itemLg) * 2 ^ g.itemLg)

/-- src/trie.c:176-177 -/
def putWord (w mask offs val : Nat) : Nat :=
  (w &&& ((2 ^ 64 - 1) ^^^ mask)) ||| (val * 2 ^ offs % 2 ^ 64 &&& mask)

/-- src/trie.c:173-177 -/
def blockSet (g : Geo) (key val : Nat) (w : List Nat) : Option (List Nat) :=
  match w[(calcPos g key).1]? with
  | none => none
  | some x => some (w.set (calcPos g key).1 (putWord x (calcPos g key).2.1 (calcPos g key).2.2 val))

/-- the range check of `trie_get_node`, src/trie.c:118 -/
def inRange (g : Geo) (key : Nat) : Bool := !(decide (g.keySize < 64) && decide (key > 2 ^ g.keySize - 1))

/-- `trie_set`, src/trie.c:166-180 -/
def set (t : Trie) (key val : Nat) : Option (Trie × Bool) :=
  if inRange t.geo key then
    match updBlock t key (blockSet t.geo key val) (maxDepth t.geo) t.root with
    | none => none
    | some r => some ({ t with root := r }, true)
  else some (t, false)

/-- `trie_data_block_get`, src/trie.c:182-192 -/
def blockGet (t : Trie) (key : Nat) : Option (List Nat) → Option Nat
  | none => some t.empty
  | some w =>
    match w[(calcPos t.geo key).1]? with
    | none => none
    | some x => some ((x &&& (calcPos t.geo key).2.1) / 2 ^ (calcPos t.geo key).2.2)

/-- `trie_get`, src/trie.c:194-198 -/
def get (t : Trie) (key : Nat) : Option Nat :=
  if inRange t.geo key then
    match findBlock t.geo key (maxDepth t.geo) t.root with
    | none => none
    | some b => blockGet t key b
  else blockGet t key none

/-! ### iteration -/

/-- what an iteration does: the callbacks made, and the return value -/
abbrev Calls := Option (List (Nat × Nat) × Nat)

/-- the callbacks of src/trie.c:216-218, `n` keys from `i` on -/
def leafLoop (t : Trie) (w : List Nat) : Nat → Nat → Option (List (Nat × Nat))
  | 0, _ => some []
  | n + 1, i =>
    match blockGet t i (some w) with
    | none => none
    | some v =>
      match leafLoop t w n (i + 1) with
      | none => none
      | some l => some ((i, v) :: l)

/-- the data block case, src/trie.c:215-221.  The loop `i <= end` never ends when `end` is the largest
`uint64_t`. -/
def leaf (t : Trie) (w : List Nat) (s e : Nat) : Calls :=
  if s ≤ e ∧ e = 2 ^ 64 - 1 then none
  else
    match leafLoop t w (e + 1 - s) s with
    | none => none
    | some l => some (l, (e + 1 + 2 ^ 64 - s) % 2 ^ 64)

/-- the clipping of src/trie.c:209-213 -/
def clip (g : Geo) (e : Nat) : Nat :=
  if g.keySize < 64 then (if e > 2 ^ g.keySize - 1 then 2 ^ g.keySize - 1 else e) else e

/-- the loop over children, src/trie.c:238-251: `n` children from `i` on -/
def kidLoop (f : Tree → Nat → Nat → Calls) (ch : List Tree) (first cnt s e : Nat) : Nat → Nat → Calls
  | 0, _ => some ([], 0)
  | n + 1, i =>
    match ch[i]? with
    | none => none
    | some c =>
      match f c (max s ((first + i * cnt) % 2 ^ 64)) (min e ((first + (i + 1) * cnt + (2 ^ 64 - 1)) % 2 ^ 64)) with
      | none => none
      | some (l, k) =>
        match kidLoop f ch first cnt s e n (i + 1) with
        | none => none
        | some (l', k') => some (l ++ l', (k + k') % 2 ^ 64)

/-- `parent_node_bit_off`, src/trie.c:223-225 -/
def parentOffs (g : Geo) (depth : Nat) : Nat :=
  if depth = 0 then g.keySize else nodeBitOffs g (depth - 1)

/-- `trie_iterate_keys_node`, src/trie.c:200-254; the first argument is `max_depth - depth` -/
def iterNode (t : Trie) : Nat → Tree → Nat → Nat → Calls
  | _, .null, _, _ => some ([], 0)
  | 0, .data w, s, e => if s > e then some ([], 0) else leaf t w s (clip t.geo e)
  | 0, .node _, s, e => if s > e then some ([], 0) else none
  | _ + 1, .data _, s, e => if s > e then some ([], 0) else none
  | r + 1, .node ch, s, e =>
    if s > e then some ([], 0)
    else
      let depth := maxDepth t.geo - (r + 1)
      let off := nodeBitOffs t.geo depth
      let poff := parentOffs t.geo depth
      let si := s / 2 ^ off % 2 ^ (poff - off)
      let ei := clip t.geo e / 2 ^ off % 2 ^ (poff - off)
      kidLoop (iterNode t r) ch (s - s % 2 ^ poff) (2 ^ off) s (clip t.geo e) (ei + 1 - si) si

/-- `trie_iterate_keys`, src/trie.c:256-261 -/
def iterate (t : Trie) (s e : Nat) : Calls := iterNode t (maxDepth t.geo) t.root s e

end Strace.Trie
