/-
Model of src/xlat.c: constant tables, symbolic printing of values and of flag words.
Names are abstract strings (`String`); output is a list of pieces (`Piece`).  How a number is spelt
(`sprint_xlat_val`: %d, %u or %#x) is the C library's printf and is kept as the piece `num v`.
-/
namespace Strace.Xlat

/-- src/xlat.h:51-54 `struct xlat_data`; a NULL `str` is `none`. -/
structure Entry where
  val : BitVec 64
  str : Option String
deriving Repr, DecidableEq

/-- src/xlat.h:13-17 `enum xlat_type` -/
inductive Kind
  | normal | sorted | indexed
deriving Repr, DecidableEq

/-- src/xlat.h:56-61 `struct xlat` (`size` is the length of `data`; `data` is not NULL) -/
structure Table where
  data : List Entry
  kind : Kind
deriving Repr, DecidableEq

/-! ### Lookup -/

/-- src/xlat.c:71-75, the loop of `xlookup` over a plain list -/
def lookupNormal : List Entry → BitVec 64 → Option String
  | [], _ => none
  | e :: es, v => if e.val = v then e.str else lookupNormal es v

/-- `bsearch` of glibc (bits/stdlib-bsearch.h) with src/xlat.c:53-59 `xlat_bsearch_compare`: the
element found in `[l, u)` -/
def bsearchLoop (d : List Entry) (v : BitVec 64) (l u : Nat) : Option Entry :=
  if h : l < u then
    let idx := (l + u) / 2
    match d[idx]? with
    | none => none
    | some e =>
      if v.toNat > e.val.toNat then bsearchLoop d v (idx + 1) u
      else if v.toNat < e.val.toNat then bsearchLoop d v l idx
      else some e
  else none
termination_by u - l
decreasing_by all_goals omega

/-- src/xlat.c:85-96: the XT_INDEXED case -/
def lookupIndexed (d : List Entry) (v : BitVec 64) : Option String :=
  if v.toNat < d.length then
    match d[v.toNat]? with
    | none => none
    | some e => if v = e.val then e.str else none
  else none

/-- src/xlat.c:61-103 `xlookup` -/
def xlookup (t : Table) (v : BitVec 64) : Option String :=
  match t.kind with
  | .normal => lookupNormal t.data v
  | .sorted => (bsearchLoop t.data v 0 t.data.length).bind (·.str)
  | .indexed => lookupIndexed t.data v

/-- src/xlat.c:105-116 `xrlookup` -/
def xrlookup (d : List Entry) (s : String) (unknown : BitVec 64) : BitVec 64 :=
  match d with
  | [] => unknown
  | e :: es => if e.str = some s then e.val else xrlookup es s unknown

/-- src/xlat.c:125-135, the loop of `xlat_search_eq_or_less`: result `Sum.inl e` is the early return,
`Sum.inr cur` the last probed index; an index out of bounds (which would be undefined behaviour) gives
`none`. -/
def leLoop (d : List Entry) (v base cur nmemb : Nat) : Option (Entry ⊕ Nat) :=
  if h : nmemb > 0 then
    let cur := base + nmemb / 2
    match d[cur]? with
    | none => none
    | some e =>
      if v = e.val.toNat then some (.inl e)
      else if v > e.val.toNat then leLoop d v (cur + 1) cur ((nmemb - 1) / 2)
      else leLoop d v base cur (nmemb / 2)
  else some (.inr cur)
termination_by nmemb
decreasing_by all_goals omega

/-- src/xlat.c:118-146 `xlat_search_eq_or_less`: `none` – undefined behaviour (empty table);
`some none` – NULL; `some (some e)` – `e` found, `*val = e.val`. -/
def searchEqOrLess (d : List Entry) (v : BitVec 64) : Option (Option Entry) :=
  match leLoop d v.toNat 0 0 d.length with
  | none => none
  | some (.inl e) => some (some e)
  | some (.inr cur) =>
    match d[cur]? with
    | none => none
    | some e =>
      if v.toNat < e.val.toNat then
        if cur > 0 then
          match d[cur - 1]? with
          | none => none
          | some e' => some (some e')
        else some none
      else some (some e)

/-! ### Printing -/

/-- one piece of output -/
inductive Piece
  | num (v : BitVec 64)     -- print_xlat_val
  | name (s : String)       -- tprints_string
  | bar                     -- "|"
  | open_                   -- " /* "
  | close                   -- " */"
  | comment (s : String)    -- " /* s */" (tprints_comment with a non-NULL string)
  | raw (s : String)        -- the caller's prefix or separator of `sprintflags_ex`
deriving Repr, DecidableEq

/-- src/xlat.h:19-39: XLAT_STYLE_RAW, _ABBREV, _VERBOSE, after `get_xlat_style` -/
inductive Verb
  | raw | abbrev | verbose
deriving Repr, DecidableEq

/-- src/strace.c:785-793 `tprints_comment`: nothing for NULL or the empty string -/
def comment (d : Option String) : List Piece :=
  match d with
  | none => []
  | some s => if s = "" then [] else [.comment s]

/-- src/xlat.c:239-252, the loop of `printxvals_ex`: the first table with a hit -/
def firstHit : List Table → BitVec 64 → Option String
  | [], _ => none
  | t :: ts, v => match xlookup t v with
    | some s => some s
    | none => firstHit ts v

/-- src/xlat.c:223-262 `printxvals_ex` -/
def printxvals (val : BitVec 64) (dflt : Option String) (st : Verb) (ts : List Table) : List Piece × Nat :=
  if st = .raw then ([.num val], 0)
  else
    match firstHit ts val with
    | some s => (if st = .verbose then [.num val] ++ comment (some s) else [.name s], 1)
    | none => ([.num val] ++ comment dflt, 0)

/-- state of the loops of `printflags_ex` -/
structure PF where
  out : List Piece
  flags : BitVec 64
  n : Nat
deriving Repr, DecidableEq

/-- src/xlat.c:447-459: one entry of the table -/
def pfEntry (st : Verb) (s : PF) (e : Entry) : PF :=
  match e.str with
  | none => s
  | some nm =>
    if s.flags = e.val ∨ (e.val ≠ 0 ∧ s.flags &&& e.val = e.val) then
      let zero := if st = .verbose ∧ s.flags = 0 then [Piece.num 0] else []
      let sep := if s.n ≠ 0 then [Piece.bar] else if st = .verbose then [Piece.open_] else []
      ⟨s.out ++ zero ++ sep ++ [.name nm], s.flags &&& ~~~e.val, s.n + 1⟩
    else s

/-- src/xlat.c:446-462: the inner loop -/
def pfTable (st : Verb) : List Entry → PF → PF
  | [], s => s
  | e :: es, s =>
    if s.flags ≠ 0 ∨ s.n = 0 then
      let s' := pfEntry st s e
      if s'.flags = 0 then s' else pfTable st es s'
    else s

/-- src/xlat.c:445-463: the loop over the tables -/
def pfTables (st : Verb) : List Table → PF → PF
  | [], s => s
  | t :: ts, s => pfTables st ts (pfTable st t.data s)

/-- src/xlat.c:419-487 `printflags_ex`: output and return value -/
def printflags (flags : BitVec 64) (dflt : Option String) (st : Verb) (ts : List Table) : List Piece × Nat :=
  if st = .raw then
    if flags ≠ 0 ∨ dflt.isSome then ([.num flags], 1) else ([], 0)
  else
    let pre := if st = .verbose ∧ flags ≠ 0 then [Piece.num flags] else []
    let s := pfTables st ts ⟨pre, flags, 0⟩
    if s.n ≠ 0 then
      let rest := if s.flags ≠ 0 then [Piece.bar, .num s.flags] else []
      let n := if s.flags ≠ 0 then s.n + 1 else s.n
      (s.out ++ rest ++ (if st = .verbose then [.close] else []), n)
    else if s.flags ≠ 0 then
      (s.out ++ (if st ≠ .verbose then [Piece.num s.flags] else []) ++ comment dflt, 0)
    else
      (s.out ++ (if dflt.isSome then [Piece.num 0] else []), 0)

/-! ### `sprintflags_ex` -/

/-- state of the loop of `sprintflags_ex`; `sep` is the C variable (`none` for NUL) -/
structure SF where
  out : List Piece
  flags : BitVec 64
  sep : Option Piece
  found : Bool
deriving Repr, DecidableEq

/-- src/xlat.c:359-374: the loop -/
def sfLoop (st : Verb) (aux : Bool) : List Entry → SF → SF
  | [], s => s
  | e :: es, s =>
    if s.flags = 0 then s
    else match e.str with
      | none => sfLoop st aux es s
      | some nm =>
        if e.val ≠ 0 ∧ s.flags &&& e.val = e.val then
          let sep := match s.sep with
            | some p => [p]
            | none => if st = .verbose ∧ aux = false then [Piece.open_] else []
          sfLoop st aux es ⟨s.out ++ sep ++ [.name nm], s.flags &&& ~~~e.val, some .bar, true⟩
        else sfLoop st aux es s

/-- src/xlat.c:335-347: the first entry names 0 -/
def zeroName (d : List Entry) : Option String :=
  match d with
  | e :: _ => if e.val = 0 then e.str else none
  | [] => none

/-- src/xlat.c:376-392: the end of `sprintflags_ex` -/
def sfFinish (st : Verb) (aux : Bool) (s : SF) : Option (List Piece) :=
  if s.flags = 0 ∧ s.found = false then none
  else
    let rest := if s.flags ≠ 0 then
        s.sep.toList ++
          (if s.found = true ∨ (st ≠ .verbose ∧ (aux = false ∨ s.sep.isSome)) then [Piece.num s.flags] else [])
      else []
    let out := s.out ++ rest ++ (if s.found = true ∧ st = .verbose ∧ aux = false then [Piece.close] else [])
    if out = [] then none else some out

/-- src/xlat.c:312-393 `sprintflags_ex`; `pre` is the prefix (no pieces when it is empty), `sep` the
separator character if not NUL, `aux` is SPFF_AUXSTR_MODE.  `none` is a NULL result.  The overflow of
the static 1024-byte buffer is not modelled. -/
def sprintflags (pre : List Piece) (d : List Entry) (flags : BitVec 64) (sep : Option Piece) (st : Verb)
    (aux : Bool) : Option (List Piece) :=
  if st = .raw then
    if flags = 0 ∨ (aux = true ∧ sep = none) then none
    else some (pre ++ sep.toList ++ [.num flags])
  else
    match (if flags = 0 then zeroName d else none) with
    | some z =>
      if st = .verbose ∧ aux = false then some (pre ++ sep.toList ++ [.num 0, .open_, .name z, .close])
      else some (pre ++ sep.toList ++ [.name z])
    | none =>
      if st = .verbose ∧ flags ≠ 0 ∧ aux = false then
        sfFinish st aux (sfLoop st aux d ⟨pre ++ sep.toList ++ [.num flags], flags, none, false⟩)
      else
        sfFinish st aux (sfLoop st aux d ⟨pre, flags, sep, false⟩)

end Strace.Xlat
