import Verif.Filter.Model
/-
Specification of the filter expressions, independent of the loops of the code.
-/
namespace Strace.Filter
open NumberSet

/-- the comma-separated pieces of a text -/
def pieces : List Nat → List (List Nat)
  | [] => [[]]
  | c :: t => if c = 44 then [] :: pieces t else
    match pieces t with
    | [] => [[c]]
    | p :: ps => (c :: p) :: ps

/-- the non-empty comma-separated pieces -/
def tokens (s : List Nat) : List (List Nat) := (pieces s).filter (fun p => p ≠ [])

/-- number of leading '!' -/
def bangCount (s : List Nat) : Nat := (s.takeWhile (· == 33)).length
/-- the text after the leading '!' -/
def afterBangs (s : List Nat) : List Nat := s.dropWhile (· == 33)

/-- complement iff the number of '!' is odd -/
def flipN (n : Nat) (b : Bool) : Bool := if n % 2 = 1 then !b else b

/-- What a set expression means, given what a single name means: `none` is "rejected with an error". -/
def meaning (f : List Nat → Option Nat) (str : List Nat) : Option (Nat → Bool) :=
  if afterBangs str = [110, 111, 110, 101] then some fun _ => flipN (bangCount str) false   -- "none"
  else if afterBangs str = [97, 108, 108] then some fun _ => flipN (bangCount str) true     -- "all"
  else if tokens (afterBangs str) = [] ∨ (tokens (afterBangs str)).any (fun t => (f t).isNone) then none
  else some fun i => flipN (bangCount str) ((tokens (afterBangs str)).any fun t => f t == some i)

/-! ### System call sets -/
namespace Spec

/-- is there a callable system call number `nr`: an entry with a decoder that is not a socketcall/ipc
subcall pseudo-entry (flag 02000)? -/
def callable (E : Env) (p nr : Nat) : Bool :=
  ((E.table p)[nr]?).any fun e => e.hasFunc && (e.flags.testBit 10) == false

/-- the number written by a numeric token: decimal digits only, at most INT_MAX; anything else is
looked up as 2^32 - 1 -/
def written (tok : List Nat) : Nat :=
  let v := tok.foldl (fun a c => a * 10 + (c - 48)) 0
  if tok.all (fun c => decide (48 ≤ c ∧ c ≤ 57)) ∧ v ≤ 2147483647 then v else 4294967295

/-- the number a numeric token denotes in personality `p`, if it is a callable system call -/
def numberOf (E : Env) (tok : List Nat) (p : Nat) : Option Nat :=
  if callable E p (E.shuffle (written tok) p % 4294967296) then some (E.shuffle (written tok) p % 4294967296)
  else if E.nonShuffledCheck ∧ callable E p (written tok) then some (written tok) else none

/-- the system call classes of the manual, and the flag bit of each in the system call table -/
def classes : List (String × Nat) := [
  ("%file", 0), ("%ipc", 1), ("%net", 2), ("%network", 2), ("%process", 3), ("%signal", 4), ("%desc", 5),
  ("%memory", 6), ("%stat", 12), ("%lstat", 13), ("%statfs", 14), ("%fstatfs", 15), ("%%statfs", 16),
  ("%fstat", 17), ("%%stat", 18), ("%pure", 19), ("%creds", 21), ("%clock", 22),
  -- without the percent sign: old spellings
  ("file", 0), ("ipc", 1), ("network", 2), ("process", 3), ("signal", 4), ("desc", 5), ("memory", 6)]

/-- the same text up to the case of ASCII letters -/
def sameName (a : List Nat) (s : String) : Bool :=
  a.map (fun c => if 65 ≤ c ∧ c ≤ 90 then c + 32 else c) == s.toList.map Char.toNat

/-- the four kinds of a (personality-less) token -/
inductive Kind
  | number (s : List Nat)
  | regex (s : List Nat)
  /-- all calls, or all calls with a given flag bit -/
  | cls (bit : Option Nat)
  | name (s : List Nat)

def kind (tok : List Nat) : Kind :=
  if tok.head?.any (fun c => decide (48 ≤ c ∧ c ≤ 57)) then .number tok
  else if tok.head? = some 47 then .regex tok.tail
  else if sameName tok "all" then .cls none
  else match classes.find? (fun e => sameName tok e.1) with
    | some e => .cls (some e.2)
    | none => .name tok

/-- does a token of this kind select system call `i` of personality `p`? -/
def selects (E : Env) (k : Kind) (p i : Nat) : Bool :=
  match (E.table p)[i]? with
  | none => false
  | some e => match k with
    | .number s => numberOf E s p == some i
    | .regex s => match E.regcomp s with
      | some m => e.name.any m
      | none => false
    | .cls none => e.name.isSome
    | .cls (some b) => e.name.isSome && e.flags.testBit b
    | .name s => e.name == some s

/-- is a token of this kind meaningful in personality `p`?  A class always is. -/
def meaningful (E : Env) (k : Kind) (p : Nat) : Bool :=
  match k with
  | .cls _ => true
  | k => (List.range (E.table p).length).any fun i => selects E k p i

/-- is the token an invalid regular expression? -/
def badRegex (E : Env) (k : Kind) : Bool :=
  match k with
  | .regex s => (E.regcomp s).isNone
  | _ => false

/-- a token: its body after '?', whether it had a '?', its personalities -/
structure Tok where
  optional : Bool
  body : List Nat
  pers : List Nat

/-- the leading '?'s make it optional; what follows the last '@' is a personality designator; `none`: unknown
designator -/
def parseTok (E : Env) (t : List Nat) : Option Tok :=
  let opt := t.head? == some 63
  let r := (t.dropWhile (· == 63)).reverse
  if 64 ∈ r then
    (E.designators.findIdx? (· == (r.takeWhile (· != 64)).reverse)).map fun p =>
      ⟨opt, ((r.dropWhile (· != 64)).drop 1).reverse, [p]⟩
  else some ⟨opt, r.reverse, List.range E.tables.length⟩

/-- is the token acceptable? -/
def tokOK (E : Env) (t : List Nat) : Bool :=
  match parseTok E t with
  | none => false
  | some k => !(badRegex E (kind k.body) && !k.pers.isEmpty) &&
      (k.optional || k.pers.any fun p => meaningful E (kind k.body) p)

/-- does the token select `i` of personality `p`? -/
def tokSel (E : Env) (t : List Nat) (p i : Nat) : Bool :=
  match parseTok E t with
  | none => false
  | some k => k.pers.contains p && selects E (kind k.body) p i

/-- What a system call set expression means: for each personality, the selected numbers. -/
def sysMeaning (E : Env) (str : List Nat) : Option (Nat → Nat → Bool) :=
  if afterBangs str = [110, 111, 110, 101] then some fun _ _ => flipN (bangCount str) false
  else if afterBangs str = [97, 108, 108] then some fun _ _ => flipN (bangCount str) true
  else if tokens (afterBangs str) = [] ∨ (tokens (afterBangs str)).any (fun t => !tokOK E t) then none
  else some fun p i => flipN (bangCount str) ((tokens (afterBangs str)).any fun t => tokSel E t p i)

end Spec
end Strace.Filter
