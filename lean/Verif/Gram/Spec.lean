import Verif.Gram.Model
/-!
# C113: the grammar of arguments

A list of arguments is separated by commas. An argument is a value, or several joined by "=>". A value is a word, or a structure or array in
brackets of its kind, whose members are separated by commas. Only members of a structure have names; a name is followed by a value. After
"=>" a name may be repeated, but only that of the member whose new value follows.
-/
namespace Strace.Gram

/-- where the reader is: after an opening bracket, where something has to come, after "=>" for the member of that name, after a name, after a
value of the member of that name -/
inductive Mode where
  | opened
  | start
  | again (n : Option String)
  | named (n : String)
  | full (n : Option String)
  deriving DecidableEq

/-- the open brackets, `true` for structures, each with the name of the member it is the value of; the place; and the number of commas between
arguments -/
structure S where
  stack : List (Bool × Option String)
  mode : Mode
  commas : Nat
  deriving DecidableEq

/-- whether a value may come, and of which member it is -/
def place : Mode → Option (Option String)
  | .opened => some none
  | .start => some none
  | .again n => some n
  | .named n => some (some n)
  | .full _ => none

def close (k : Bool) (s : S) : Option S :=
  match s.stack, s.mode with
  | (k', n) :: r, .opened => if k = k' then some ⟨r, .full n, s.commas⟩ else none
  | (k', n) :: r, .full _ => if k = k' then some ⟨r, .full n, s.commas⟩ else none
  | _, _ => none

def step (s : S) : Tok → Option S
  | .val => (place s.mode).map fun n => ⟨s.stack, .full n, s.commas⟩
  | .so => (place s.mode).map fun n => ⟨(true, n) :: s.stack, .opened, s.commas⟩
  | .ao => (place s.mode).map fun n => ⟨(false, n) :: s.stack, .opened, s.commas⟩
  | .sc => close true s
  | .ac => close false s
  | .name x =>
    match s.stack, s.mode with
    | (true, _) :: _, .opened => some ⟨s.stack, .named x, s.commas⟩
    | (true, _) :: _, .start => some ⟨s.stack, .named x, s.commas⟩
    | (true, _) :: _, .again (some n) => if x = n then some ⟨s.stack, .named n, s.commas⟩ else none
    | _, _ => none
  | .next =>
    match s.mode with
    | .full _ => some ⟨s.stack, .start, if s.stack = [] then s.commas + 1 else s.commas⟩
    | _ => none
  | .changed =>
    match s.mode with
    | .full n => some ⟨s.stack, .again n, s.commas⟩
    | _ => none

def run (s : S) : List Tok → Option S
  | [] => some s
  | t :: r => (step s t).bind fun s' => run s' r

/-- well formed, with `n` arguments -/
def WellFormed (n : Nat) (t : List Tok) : Prop := run ⟨[], .start, 1⟩ t = some ⟨[], .full none, n⟩

instance (n : Nat) (t : List Tok) : Decidable (WellFormed n t) := by unfold WellFormed; infer_instance

end Strace.Gram
