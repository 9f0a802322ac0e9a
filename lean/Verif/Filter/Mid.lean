import Verif.Filter.Spec
/-
An intermediate reading of the expressions, closer to the code than the specification; the proofs go
through it.
-/
namespace Strace.Filter
open NumberSet

/-- the number a numeric token denotes in personality `p`, if it is a valid system call -/
def numberOf (E : Env) (tok : List Nat) (p : Nat) : Option Nat :=
  let nr := tokenNumber tok
  if E.valid (E.shuffle nr p % 2 ^ 32) p then some (E.shuffle nr p % 2 ^ 32)
  else if E.nonShuffledCheck && E.valid nr p then some nr else none

/-- the four kinds of a (personality-less) token -/
inductive Kind
  | number (s : List Nat)
  | regex (s : List Nat)
  | cls (mask : Nat)
  | name (s : List Nat)

/-- a token that is neither numeric nor a regular expression: a class if there is one, else a name -/
def classOrName (tok : List Nat) : Kind :=
  match findClass tok with
  | some n => .cls n
  | none => .name tok

def kind (tok : List Nat) : Kind :=
  if (tok.head?.map fun c => decide (48 ≤ c ∧ c ≤ 57)) = some true then .number tok
  else if tok.head? = some 47 then .regex tok.tail
  else classOrName tok

/-- does a token of this kind select system call `i` of personality `p`? -/
def selects (E : Env) (k : Kind) (p i : Nat) : Bool :=
  match k with
  | .number s => numberOf E s p == some i
  | .regex s => match E.regcomp s with
    | some m => E.nameSat p i m
    | none => false
  | .cls n => E.classSat p i n
  | .name s => E.nameSat p i (fun nm => s == nm)

/-- is a token of this kind meaningful in personality `p`? -/
def meaningful (E : Env) (k : Kind) (p : Nat) : Bool :=
  match k with
  | .number s => (numberOf E s p).isSome
  | .cls _ => true
  | k => (List.range (E.table p).length).any fun i => selects E k p i

/-- is the token an invalid regular expression? -/
def badRegex (E : Env) (k : Kind) : Bool :=
  match k with
  | .regex s => (E.regcomp s).isNone
  | _ => false

/-- a token: its body after '?', whether it had a '?', its personalities; `none`: unknown designator -/
structure Tok where
  optional : Bool
  body : List Nat
  pers : List Nat

def parseTok (E : Env) (t : List Nat) : Option Tok :=
  let body := t.dropWhile (· == 63)
  let opt := t.head? == some 63
  match splitLastAt body with
  | none => some ⟨opt, body, List.range E.tables.length⟩
  | some (nm, d) => (E.designators.findIdx? (· == d)).map fun p => ⟨opt, nm, [p]⟩

/-- is the token acceptable? -/
def tokOK (E : Env) (t : List Nat) : Bool :=
  match parseTok E t with
  | none => false
  | some k => !(badRegex E (kind k.body) && !k.pers.isEmpty) &&
      (k.optional || k.pers.any fun p => meaningful E (kind k.body) p)

/-- does the token select `i` of personality `p`? -/
def tokSel (E : Env) (t : List Nat) (p i : Nat) : Bool :=
  match parseTok E t with
  | none => false
  | some k => k.pers.contains p && selects E (kind k.body) p i

/-- What a system call set expression means: for each personality, the selected numbers. -/
def sysMeaning (E : Env) (str : List Nat) : Option (Nat → Nat → Bool) :=
  if afterBangs str = sNone then some fun _ _ => flipN (bangCount str) false
  else if afterBangs str = sAll then some fun _ _ => flipN (bangCount str) true
  else if tokens (afterBangs str) = [] ∨ (tokens (afterBangs str)).any (fun t => !tokOK E t) then none
  else some fun p i => flipN (bangCount str) ((tokens (afterBangs str)).any fun t => tokSel E t p i)

end Strace.Filter
