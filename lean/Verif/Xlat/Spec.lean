import Verif.Xlat.Model
/-
What a flag word's symbolic form has to satisfy, independent of the loops of the code.
-/
namespace Strace.Xlat

/-- every bit of `v` is a bit of `f` -/
def Within (v f : BitVec 64) : Prop := ∀ i, v.getLsbD i = true → f.getLsbD i = true

/-- OR of the values of the entries -/
def orAll : List Entry → BitVec 64
  | [] => 0
  | e :: es => e.val ||| orAll es

/-- `L` are the names listed and `r` the residual number for the flag word `flags`, with the tables
`es` (concatenated):
* the names are those of table entries, in table order, none used twice;
* each listed entry is contained in the flag word and is not 0;
* names and residual OR to the flag word;
* the residual has no bit in common with the listed names;
* no named table entry is left inside the residual. -/
structure Decomposes (es : List Entry) (flags : BitVec 64) (L : List Entry) (r : BitVec 64) : Prop where
  sub : L.Sublist es
  named : ∀ e ∈ L, e.str.isSome = true
  within : ∀ e ∈ L, Within e.val flags ∧ e.val ≠ 0
  total : orAll L ||| r = flags
  disjoint : r &&& orAll L = 0
  maximal : ∀ e ∈ es, e.str.isSome = true → e.val ≠ 0 → ¬ Within e.val r

/-- names separated by bars -/
def names : List Entry → List Piece
  | [] => []
  | [e] => [.name (e.str.getD "")]
  | e :: es => .name (e.str.getD "") :: .bar :: names es

/-- the symbolic form: names and, if there is one, the residual, separated by bars -/
def symbolic (L : List Entry) (r : BitVec 64) : List Piece :=
  names L ++ (if r ≠ 0 then [.bar, .num r] else [])

end Strace.Xlat
