import Verif.Cli.NameTables
import Verif.Base.Dec
import Verif.StringToUint.Model
import Verif.Filter.Model
/-!
# Names of signals and errors on the command line

`signal.c` and `filter_qualify.c`: how a signal or error number is named in the trace, and how such a name is read in
`-e signal=`, `signal=` and `error=`. Texts are lists of character codes without the final NUL.
-/
namespace Strace.Cli

open Strace.StringToUint (stringToUintUpto)
open Strace.Filter (codes caseEq)

/-- What one architecture compiles in: `signalent` and `errnoent` (src/syscall.c:77-82), `nsignals` and `nerrnos`
(src/syscall.c:146-147), `ASM_SIGRTMIN`/`ASM_SIGRTMAX` (src/signal.c:48-64). -/
structure Names where
  sigs : List (List Nat)
  rtmin : Nat
  rtmax : Nat
  errs : List (Nat × List Nat)
  nerrnos : Nat

/-- src/signal.c:105-124 `signame`. -/
def signame (N : Names) (sig : Int) : Option (List Nat) :=
  if sig > 0 then
    let s := sig.toNat
    if s < N.sigs.length then N.sigs[s]?
    else if s ≥ N.rtmin ∧ s ≤ N.rtmax then some (codes "SIGRT_" ++ Base.dec (s - N.rtmin))
    else none
  else none

/-- `strncasecmp(s, p, strlen(p)) == 0` (libc contract; a shorter `s` differs at its NUL) -/
def casePrefix (s p : List Nat) : Bool := caseEq (s.take p.length) p

/-- src/filter_qualify.c:50-64, the body of the loop: does signal `i` have the name `s`, without its "SIG"? -/
def sigMatches (N : Names) (s : List Nat) (i : Nat) : Bool :=
  match signame N i with
  | none => false
  | some name => casePrefix name (codes "SIG") && caseEq (name.drop 3) s

/-- src/filter_qualify.c:42-69 `sigstr_to_uint`; `none` is -1. -/
def sigstrToUint (N : Names) (s : List Nat) : Option Int :=
  match s with
  | c :: _ =>
    if 48 ≤ c ∧ c ≤ 57 then stringToUintUpto s 255
    else
      let s := if casePrefix s (codes "SIG") then s.drop 3 else s
      ((List.range' 1 255).find? (sigMatches N s)).map Int.ofNat
  | [] => ((List.range' 1 255).find? (sigMatches N [])).map Int.ofNat

/-- `errnoent[i]` (src/syscall.c:77-79); missing entries are NULL -/
def errnoent (N : Names) (i : Nat) : Option (List Nat) := (N.errs.find? fun e => e.1 == i).map (·.2)

/-- src/filter_qualify.c:132 the test of the loop -/
def errMatches (N : Names) (name : List Nat) (i : Nat) : Bool :=
  match errnoent N i with
  | some e => caseEq name e
  | none => false

/-- src/filter_qualify.c:127-136 `find_errno_by_name`; `none` is -1. -/
def findErrnoByName (N : Names) (name : List Nat) : Option Nat :=
  (List.range' 1 (N.nerrnos - 1)).find? (errMatches N name)

/-- src/syscall.c:412-416 `err_name`. -/
def errName (N : Names) (err : Nat) : Option (List Nat) :=
  if err < N.nerrnos then errnoent N err else none

/-- src/filter_qualify.c:351-361, the value after `error=`: `none` is a refused token, otherwise the error number
handed to `retval_new`. -/
def errorValue (N : Names) (val : List Nat) : Option Int :=
  let intval : Int :=
    match stringToUintUpto val 4095 with
    | some v => v
    | none => match findErrnoByName N val with
      | some i => i
      | none => -1
  if intval < 1 then none else some intval

/-- src/filter_qualify.c:379-387, the value after `signal=`; `nsigBytes` is `NSIG_BYTES`. -/
def signalValue (N : Names) (nsigBytes : Nat) (val : List Nat) : Option Int :=
  match sigstrToUint N val with
  | none => none
  | some v => if v < 1 ∨ v > nsigBytes * 8 then none else some v

/-- index of the last designated initialiser plus one: `ARRAY_SIZE(errnoent)` (src/syscall.c:146) -/
def arraySize (l : List (Nat × String)) : Nat := l.foldl (fun m e => max m (e.1 + 1)) 0

/-- the tables of one architecture -/
def mkNames (sig : List String) (rtmax : Nat) (err : List (Nat × String)) : Names :=
  { sigs := sig.map codes, rtmin := 32, rtmax := rtmax, errs := err.map fun e => (e.1, codes e.2), nerrnos := arraySize err }

/-- the combinations of src/linux/*/signalent.h and errnoent.h -/
def generic : Names := mkNames sig_generic 64 err_generic
def powerpc : Names := mkNames sig_generic 64 err_powerpc
def alpha : Names := mkNames sig_alpha 64 err_alpha
def hppa : Names := mkNames sig_hppa 64 err_hppa
def mips : Names := mkNames sig_mips 127 err_mips
def sparc : Names := mkNames sig_sparc 64 err_sparc

def allNames : List Names := [generic, powerpc, alpha, hppa, mips, sparc]

end Strace.Cli
