import Verif.StringToUint.Model
/-!
# The argument of `-p`: src/strace.c `process_opt_p_list`

Texts are lists of character codes without the final NUL.
-/
namespace Strace.Cli

open Strace.StringToUint (stringToUintUpto)

/-- the delimiters "\n\t ,", src/strace.c:1362 -/
def isDelim (c : Nat) : Bool := c == 10 || c == 9 || c == 32 || c == 44

/-- `strcspn(s, "\n\t ,")` (libc contract) -/
def strcspn : List Nat → Nat
  | [] => 0
  | c :: t => if isDelim c then 0 else strcspn t + 1

/-- src/strace.c:1353-1383 `process_opt_p_list`.  `self` is `strace_tracer_pid`; `got` the processes for which
`alloctcb` was called so far, the latest first.  `none` is an error message and exit.  The pointer `opt` is the text
that is left; the write of the NUL at `delim` and its undoing (1370, 1378) is the `take`. -/
def processOptP (self : Int) (opt : List Nat) (got : List Int) : Option (List Int) :=
  match opt with
  | [] => some got
  | c :: t =>
    let adv := strcspn (c :: t)
    if adv = 0 then processOptP self t got
    else
      match stringToUintUpto ((c :: t).take adv) (2 ^ 31 - 1) with
      | none => none
      | some pid =>
        if pid ≤ 0 then none
        else if pid = self then none
        else
          if adv = (c :: t).length then some (pid :: got)
          else processOptP self ((c :: t).drop (adv + 1)) (pid :: got)
termination_by opt.length
decreasing_by all_goals simp_all <;> omega

end Strace.Cli
