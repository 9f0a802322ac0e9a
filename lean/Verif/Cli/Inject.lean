import Verif.Cli.Names
import Verif.Inject.Model
import Verif.Time.Model
import Verif.NumberSet.Model
/-!
# Injection expressions: src/filter_qualify.c

The text of `-e inject=` and `-e fault=`, down to the rule that is stored for each system call. Texts are lists of
character codes without the final NUL. Here a rule holds the values themselves; the tables of values and indices are
modelled in `Verif.Misc.Rules` and `Verif.Misc.Poke`. Running out of memory ends the program and is not modelled.
-/
namespace Strace.Cli

open Strace.StringToUint (skipSpace splitSign isSpace)
open Strace.Filter (codes scnoByName)

/-- one `strtok_r(s, d, …)` with the single delimiter `d` (libc contract): skip delimiters, take the longest run
without one, continue after the delimiter that ended it -/
def strtokBy (d : Nat) (s : List Nat) : Option (List Nat × List Nat) :=
  match s.dropWhile (· == d) with
  | [] => none
  | c :: t => some ((c :: t).takeWhile (· != d), ((c :: t).dropWhile (· != d)).drop 1)

theorem strtokBy_length {d : Nat} {s t r : List Nat} (h : strtokBy d s = some (t, r)) : r.length < s.length := by
  unfold strtokBy at h
  have h1 := (List.dropWhile_suffix (l := s) (· == d)).length_le
  split at h
  · cases h
  · rename_i c u heq
    injection h with h
    injection h with _ h
    subst h
    have hc : (c == d) = false := by
      have := List.head?_dropWhile_not (· == d) s
      rw [heq] at this
      simpa using this
    rw [heq] at h1
    have h2 : (List.dropWhile (· != d) (c :: u)).length ≤ u.length := by
      rw [List.dropWhile_cons]
      have : (c != d) = true := by simp only [bne, hc]; rfl
      simp only [this, if_true]
      exact (List.dropWhile_suffix _).length_le
    simp only [List.length_drop, List.length_cons] at *
    omega

/-- src/defs.h:883-890 `STR_STRIP_PREFIX`; `none` if the text does not start with the prefix -/
def strip (p : String) (s : List Nat) : Option (List Nat) :=
  if s.take (codes p).length = codes p then some (s.drop (codes p).length) else none

/-! ### `poke_enter=` and `poke_exit=` -/

/-- the value of a digit character, 0-9, a-z, A-Z; anything else is 99 -/
def digitVal (c : Nat) : Nat :=
  if 48 ≤ c ∧ c ≤ 57 then c - 48
  else if 97 ≤ c ∧ c ≤ 122 then c - 97 + 10
  else if 65 ≤ c ∧ c ≤ 90 then c - 65 + 10
  else 99

/-- the digits of `%2hhx`, at most `w` of them: the value, and whether there was a digit -/
def scanHex : Nat → Nat → List Nat → Bool → Nat × Bool
  | 0, acc, _, any => (acc, any)
  | _, acc, [], any => (acc, any)
  | w + 1, acc, c :: t, any => if digitVal c < 16 then scanHex w (acc * 16 + digitVal c) t true else (acc, any)

/-- `scanHex` after the sign; a "0x" prefix counts against the width, and "0x" alone is zero (glibc) -/
def scanBody (w : Nat) (s : List Nat) : Nat × Bool :=
  match s with
  | 48 :: x :: t => if 2 ≤ w ∧ (x = 120 ∨ x = 88) then ((scanHex (w - 2) 0 t true).1, true) else scanHex w 0 s false
  | _ => scanHex w 0 s false

/-- `sscanf(s, "%2hhx", &byte)` (libc contract, glibc): blanks are skipped and do not count against the width of two,
a sign counts; `none` if nothing was converted -/
def sscanf2hhx (s : List Nat) : Option Nat :=
  match skipSpace s with
  | 43 :: t => let r := scanBody 1 t; if r.2 then some (r.1 % 256) else none
  | 45 :: t => let r := scanBody 1 t; if r.2 then some ((256 - r.1 % 256) % 256) else none
  | t => let r := scanBody 2 t; if r.2 then some (r.1 % 256) else none

/-- src/filter_qualify.c:203-205: the bytes from `val` on, `n` of them -/
def pokeBytes : Nat → List Nat → Option (List Nat)
  | 0, _ => some []
  | n + 1, val =>
    match sscanf2hhx val with
    | none => none
    | some b => (pokeBytes n (val.drop 2)).map (b :: ·)

/-- src/filter_qualify.c:180-205: one token, giving the argument number and the data; `none` is `goto err` -/
def pokeItem (token : List Nat) : Option (Nat × List Nat) :=
  match strip "@arg" token with
  | none => none
  | some val =>
    match val with
    | d :: e :: val =>
      if 49 ≤ d ∧ d ≤ 55 then
        if e ≠ 61 then none
        else if val.length = 0 ∨ val.length % 2 ≠ 0 ∨ val.length > 2048 then none
        else (pokeBytes (val.length / 2) val).map fun bs => (d - 48, bs)
      else none
    | _ => none

/-- src/filter_qualify.c:175-211: the loop over the tokens.  `poke_add` (src/poke.c:44-56) refuses a second payload for
the same argument; payloads for entering and leaving are apart, so `got` holds those of this token only. -/
def pokeLoop (s : List Nat) (got : List (Nat × List Nat)) : Option (List (Nat × List Nat)) :=
  match _h : strtokBy 44 s with
  | none => some got
  | some (tok, rest) =>
    match pokeItem tok with
    | none => none
    | some p => if got.any (fun q => q.1 == p.1) then none else pokeLoop rest (got ++ [p])
termination_by s.length
decreasing_by exact strtokBy_length _h

/-- src/filter_qualify.c:159-220 `parse_poke_token`, without the test of the flag -/
def pokeValue (input : List Nat) : Option (List (Nat × List Nat)) :=
  if input = [] then none else pokeLoop input []

/-! ### `retval=` -/

/-- the digit loop of `strtoull` in base `b` -/
def digitsB (b : Nat) : Nat → List Nat → Nat × List Nat
  | acc, [] => (acc, [])
  | acc, c :: t => if digitVal c < b then digitsB b (acc * b + digitVal c) t else (acc, c :: t)

/-- base zero of `strtoull` (libc contract): "0x" with a hexadecimal digit after it is base 16, "0b" with a binary
digit after it is base 2 if the C library knows it (`c2x`), another "0" base 8, anything else base 10 -/
def baseOf (c2x : Bool) (s : List Nat) : Nat × List Nat :=
  match s with
  | 48 :: x :: d :: t =>
    if (x = 120 ∨ x = 88) ∧ digitVal d < 16 then (16, d :: t)
    else if c2x ∧ (x = 98 ∨ x = 66) ∧ digitVal d < 2 then (2, d :: t)
    else (8, s)
  | 48 :: _ => (8, s)
  | _ => (10, s)

/-- the conversion in base `b`: the value and the rest; `none` without a digit -/
def convertB (b : Nat) (s : List Nat) : Option (Nat × List Nat) :=
  match s with
  | c :: t => if digitVal c < b then some (digitsB b 0 (c :: t)) else none
  | [] => none

/-- the body of `strtoull`, after blanks and sign: the value before negation and the rest -/
def strtoullBody (c2x : Bool) (s : List Nat) : Option (Nat × List Nat) :=
  convertB (baseOf c2x s).1 (baseOf c2x s).2

/-- src/filter_qualify.c:362-378: `strtoull(val, &endp, 0)` and the tests after it; `kbits` is the width of
`kernel_ulong_t`.  Values out of range give ULLONG_MAX with ERANGE, which is refused. -/
def retvalValue (c2x : Bool) (kbits : Nat) (val : List Nat) : Option Nat :=
  match strtoullBody c2x (splitSign (skipSpace val)).2 with
  | none => none
  | some (m, rest) =>
    if m ≥ 2 ^ 64 then none
    else
      let ull := if (splitSign (skipSpace val)).1 then (2 ^ 64 - m) % 2 ^ 64 else m
      if rest ≠ [] ∨ ull % 2 ^ kbits ≠ ull then none else some ull

/-! ### Tokens -/

/-- What the program was built with and what it sees: names, system call tables, NSIG_BYTES, ENOSYS, the C library's
`strtoull`, the width of `kernel_ulong_t`, and the floating-point branch of `parse_ts`. -/
structure Build where
  names : Names
  env : Filter.Env
  nsigBytes : Nat
  enosys : Nat
  c2x : Bool
  kbits : Nat
  fl : List Nat → Option Time.Ts

/-- src/defs.h:246-260 `struct inject_opts` and `inject_personality_data`, with the values in place of their indices;
`none` is a cleared flag.  `syscall` is the number for each personality (kept in 16 bits; table numbers are taken to be
below 65536). -/
structure Opts where
  sched : Inject.Sched := ⟨1, Inject.lastInf, 1⟩
  syscall : Option (List Nat) := none
  error : Option Int := none
  retval : Option Nat := none
  signal : Option Int := none
  pokeEnter : Option (List (Nat × List Nat)) := none
  pokeExit : Option (List (Nat × List Nat)) := none
  delayEnter : Option Time.Ts := none
  delayExit : Option Time.Ts := none

/-- src/sysent.h TRACE_PURE -/
def tracePure : Nat := 0o2000000

/-- src/filter_qualify.c:335-347: one personality of `syscall=` -/
def pureScno (B : Build) (val : List Nat) (p : Nat) : Option Nat :=
  match scnoByName B.env val p 0 with
  | none => none
  | some scno =>
    match (B.env.table p)[scno]? with
    | none => none
    | some e => if e.flags &&& tracePure = 0 then none else some scno

/-- src/filter_qualify.c:335-347: the loop over the personalities -/
def pureScnos (B : Build) (val : List Nat) : List Nat → Option (List Nat)
  | [] => some []
  | p :: ps =>
    match pureScno B val p with
    | none => none
    | some n => (pureScnos B val ps).map (n :: ·)

/-- src/filter_qualify.c:259-406 `parse_inject_token`; `none` is `return false`. -/
def parseToken (B : Build) (fault : Bool) (tok : List Nat) (o : Opts) : Option Opts :=
  match strip "when=" tok with
  | some val => (Inject.parseWhen val).map fun s => { o with sched := s }
  | none =>
  match strip "syscall=" tok with
  | some val =>
    if o.syscall.isSome then none
    else (pureScnos B val (List.range B.env.tables.length)).map fun l => { o with syscall := some l }
  | none =>
  match strip "error=" tok with
  | some val =>
    if o.error.isSome || o.retval.isSome then none
    else (errorValue B.names val).map fun v => { o with error := some v }
  | none =>
  if fault then none
  else
  match strip "retval=" tok with
  | some val =>
    if o.error.isSome || o.retval.isSome then none
    else (retvalValue B.c2x B.kbits val).map fun v => { o with retval := some v }
  | none =>
  match strip "signal=" tok with
  | some val =>
    if o.signal.isSome then none
    else (signalValue B.names B.nsigBytes val).map fun v => { o with signal := some v }
  | none =>
  match strip "poke_enter=" tok with
  | some val => if o.pokeEnter.isSome then none else (pokeValue val).map fun v => { o with pokeEnter := some v }
  | none =>
  match strip "poke_exit=" tok with
  | some val => if o.pokeExit.isSome then none else (pokeValue val).map fun v => { o with pokeExit := some v }
  | none =>
  match strip "delay_enter=" tok with
  | some val => if o.delayEnter.isSome then none else (Time.parseTs B.fl val).map fun v => { o with delayEnter := some v }
  | none =>
  match strip "delay_exit=" tok with
  | some val => if o.delayExit.isSome then none else (Time.parseTs B.fl val).map fun v => { o with delayExit := some v }
  | none => none

/-- src/filter_qualify.c:420-424: the loop of `parse_inject_expression` -/
def parseTokens (B : Build) (fault : Bool) (s : List Nat) (o : Opts) : Option Opts :=
  match _h : strtokBy 58 s with
  | none => some o
  | some (tok, rest) =>
    match parseToken B fault tok o with
    | none => none
    | some o => parseTokens B fault rest o
termination_by s.length
decreasing_by exact strtokBy_length _h

/-- src/filter_qualify.c:410-429 `parse_inject_expression`: the set of system calls as written, and the options -/
def parseExpression (B : Build) (fault : Bool) (str : List Nat) : Option (List Nat × Opts) :=
  match str with
  | [] => some ([], {})
  | c :: _ =>
    if c = 58 then some ([], {})
    else
      match strtokBy 58 str with
      | none => none
      | some (name, rest) => (parseTokens B fault rest {}).map fun o => (name, o)

/-- src/defs.h:236-244 INJECT_ACTION_FLAGS -/
def hasAction (o : Opts) : Bool :=
  o.signal.isSome || o.error.isSome || o.retval.isSome || o.delayEnter.isSome || o.delayExit.isSome ||
    o.pokeEnter.isSome || o.pokeExit.isSome

/-- what is stored for a system call: the options, and the number to execute instead (`data.scno`, 0 by default) -/
structure Stored where
  opts : Opts
  scno : Nat

/-- `inject_vec[p][i]` of the calls in the injection set; `none` for the others -/
abbrev Vec := Nat → Nat → Option Stored

/-- src/filter_qualify.c:575-600: the merge of one personality -/
def mergePers (B : Build) (sets : List NumberSet.NSet) (o : Opts) (p : Nat) (v : Vec) : Vec :=
  match sets[p]? with
  | none => v
  | some set =>
    if NumberSet.isEmptySet set then v
    else fun q i =>
      if q = p ∧ i < (B.env.table p).length ∧ NumberSet.isNumberInSet i set = some true then
        some ⟨o, (o.syscall.getD []).getD p 0⟩
      else v q i

/-- src/filter_qualify.c:534-603 `qualify_inject_common`; `none` is an error message and exit. -/
def qualifyInject (B : Build) (fault : Bool) (str : List Nat) (v : Vec) : Option Vec :=
  match parseExpression B fault str with
  | none => none
  | some (name, o) =>
    match Filter.qualifySyscallTokens B.env name (List.replicate B.env.tables.length NumberSet.empty) with
    | none => none
    | some sets =>
      let o? : Option Opts :=
        if hasAction o then some o else if fault then some { o with error := some B.enosys } else none
      o?.map fun o => (List.range B.env.tables.length).foldl (fun v p => mergePers B sets o p v) v

/-! ### `-e` -/

/-- src/filter_qualify.c:674-713 `qual_options`, by the function that is called -/
inductive Handler
  | trace | traceFd | abbrev | verbose | raw | signals | status | quiet | read | write | fault | inject | kvm
  | decodeFd | decodePid | secontext | namespace
deriving Repr, DecidableEq

/-- src/filter_qualify.c:674-713 -/
def qualOptions : List (String × Handler) := [
  ("trace", .trace), ("t", .trace), ("trace-fd", .traceFd), ("trace-fds", .traceFd), ("fd", .traceFd),
  ("fds", .traceFd), ("abbrev", .abbrev), ("a", .abbrev), ("verbose", .verbose), ("v", .verbose), ("raw", .raw),
  ("x", .raw), ("signal", .signals), ("signals", .signals), ("s", .signals), ("status", .status), ("quiet", .quiet),
  ("silent", .quiet), ("silence", .quiet), ("q", .quiet), ("read", .read), ("reads", .read), ("r", .read),
  ("write", .write), ("writes", .write), ("w", .write), ("fault", .fault), ("inject", .inject), ("kvm", .kvm),
  ("decode-fd", .decodeFd), ("decode-fds", .decodeFd), ("decode-pid", .decodePid), ("decode-pids", .decodePid),
  ("secontext", .secontext), ("namespace", .namespace)]

/-- src/filter_qualify.c:720-730: the loop of `qualify` -/
def findQual (str : List Nat) : List (String × Handler) → Option (Handler × List Nat)
  | [] => none
  | e :: es =>
    match strip e.1 str with
    | some (61 :: val) => some (e.2, val)
    | _ => findQual str es

/-- src/filter_qualify.c:715-733 `qualify`: the function called and its argument -/
def qualify (str : List Nat) : Handler × List Nat := (findQual str qualOptions).getD (.trace, str)

end Strace.Cli
