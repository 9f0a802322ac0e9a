import Verif.Secon.Model
import Verif.Quote.Spec
/-!
# C112: SELinux contexts
-/
namespace Strace.Secon

/-- the fields of a context, between colons -/
def fields : List Nat → List (List Nat)
  | [] => [[]]
  | c :: r =>
    if c = 58 then [] :: fields r
    else
      match fields r with
      | [] => [[c]]
      | f :: fs => (c :: f) :: fs

/-- user:role:type:level: the type, or the whole if there is none -/
def typeOf (s : List Nat) : List Nat :=
  match fields s with
  | _ :: _ :: t :: _ => t
  | _ => s

/-- `r` is `s` without the newlines at the end -/
def Stripped (s r : List Nat) : Prop := (∃ k, s = r ++ List.replicate k 10) ∧ r.getLast? ≠ some 10

/-- the part of a context that is asked for -/
def Wanted (full : Bool) (s r : List Nat) : Prop := Stripped (if full then s else typeOf s) r

/-- read a quoted string without its quotes -/
def unquote (t : List Nat) : Option (List Nat) :=
  match Quote.decodeBody false (t ++ [34]) with
  | some (bs, []) => some bs
  | _ => none

/-- read what is between the brackets: the context, and what comes after "!!" -/
def readContext (t : List Nat) : Option (List Nat × Option (List Nat)) :=
  match t.dropWhile (· != 33) with
  | [] => (unquote t).map fun c => (c, none)
  | _ :: 33 :: r =>
    match unquote (t.takeWhile (· != 33)), unquote r with
    | some c, some e => some (c, some e)
    | _, _ => none
  | _ => none

/-- the directory in which the kernel looks up each of the paths of a call, as the manual pages say: that of the descriptor, or the
current one. The target of a symbolic link is not looked up. -/
def kernelLookups (args : Nat → Int) : Call → List (Int × Nat)
  | .onePath n => [(-100, n)]
  | .link => [(-100, 0), (-100, 1)]
  | .at1 => [(args 0, 1)]
  | .at2 => [(args 0, 1), (args 2, 3)]
  | .symlinkat => [(args 1, 2)]
  | .fanotifyMark => [(args 3, 4)]
  | .fsconfigPath => [(args 4, 3)]
  | .getdents n => List.replicate n (args 0, 1)

end Strace.Secon
