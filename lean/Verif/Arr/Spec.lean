import Verif.Arr.Model
/-!
# Arrays: what is to be shown
-/
namespace Strace.Arr

/-- the elements from `i` to before `j` are printed in order, and printing goes on after each: `s` is the state of the printing
function before and `s'` after, `l` is what it prints -/
inductive Run {α β σ : Type} (elem : Nat → Option β) (print : σ → β → α × σ × Bool) : Nat → σ → List α → Nat → σ → Prop
  | nil (i : Nat) (s : σ) : Run elem print i s [] i s
  | cons (i j : Nat) (s s1 s' : σ) (b : β) (a : α) (l : List α) (he : elem i = some b) (hp : print s b = (a, s1, true))
      (hr : Run elem print (i + 1) s1 l j s') : Run elem print i s (a :: l) j s'

/-- why printing ended -/
inductive Why (α : Type)
  /-- all elements are shown -/
  | done
  /-- an element cannot be read -/
  | unreadable
  /-- the limit of the number of elements is reached -/
  | limit
  /-- the printing function has printed `a` and asked to stop -/
  | stopped (a : α)
  deriving DecidableEq, Repr

/-- an element could not be read -/
def Why.isUnreadable {α : Type} : Why α → Bool
  | .unreadable => true
  | _ => false

/-- the limit that applies to an array of `n` elements: the length of the array is taken modulo 2^32 -/
def applies (limit : Option Nat) (n : Nat) : Option Nat := limit.filter fun m => decide (n % 2 ^ 32 > m)

/-- the first `j` elements of `n` are shown, `l`, and printing ends because of `why`; the state is `s'` at the end -/
def Ends {α β σ : Type} (limit : Option Nat) (elem : Nat → Option β) (print : σ → β → α × σ × Bool) (n : Nat) (s : σ) (l : List α)
    (j : Nat) (why : Why α) (s' : σ) : Prop :=
  j ≤ n ∧ (∀ m, limit = some m → j ≤ m) ∧
  match why with
  | .done => j = n ∧ Run elem print 0 s l j s'
  | .unreadable => j < n ∧ elem j = none ∧ Run elem print 0 s l j s'
  | .limit => j < n ∧ limit = some j ∧ elem j ≠ none ∧ Run elem print 0 s l j s'
  | .stopped a => j < n ∧ ∃ b t, Run elem print 0 s l j t ∧ elem j = some b ∧ print t b = (a, s', false) ∧ limit ≠ some j

/-- items separated by commas -/
def join {α : Type} : List (List (Tok α)) → List (Tok α)
  | [] => []
  | x :: xs => x ++ xs.flatMap fun y => .next :: y

/-- the elements with their indices if asked for -/
def items {α : Type} (indices : Bool) : Nat → List α → List (List (Tok α))
  | _, [] => []
  | i, a :: l => (if indices = true then [.index i, .elem a] else [.elem a]) :: items indices (i + 1) l

/-- the element printed last, and what shows that something is left out -/
def mark {α : Type} (indices trunc : Bool) (start es j : Nat) (why : Why α) : List (List (Tok α)) :=
  match why with
  | .done => if trunc = true then [[.more]] else []
  | .unreadable => [[.more, .comment (start + j * es)]]
  | .limit => [[.more]]
  | .stopped a => items indices j [a] ++ if trunc = true then [[.more]] else []

/-- the array as text -/
def text {α : Type} (c : Cfg) (start es : Nat) (l : List α) (j : Nat) (why : Why α) : List (Tok α) :=
  if j = 0 ∧ why.isUnreadable = true then [.addr start]
  else .opened :: join (items c.indices 0 l ++ mark c.indices c.trunc start es j why) ++ [.closed]

/-- the elements of an array at an address -/
def at' {β : Type} (src : Src β) (start es i : Nat) : Option β := src.get (start + i * es)

end Strace.Arr
