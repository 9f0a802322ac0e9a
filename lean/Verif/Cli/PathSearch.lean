/-!
# Finding the program to run: src/strace.c `startup_child`

Texts are lists of character codes without the final NUL; `pathname` is an array of 4096 characters. A write outside
the array is the outcome `bad`.
-/
namespace Strace.Cli

/-- sizeof(pathname), src/strace.c:1712 -/
def PATH_MAX : Nat := 4096

/-- What `startup_child` sees of the system: `getcwd` (src/strace.c:1736; `none` if it fails, as it also does when the
result needs more than PATH_MAX characters) and whether `stat_file` finds a regular file with some execute bit set
(1751-1756).  The file system does not change during the search. -/
structure Sys where
  cwd : Option (List Nat)
  exec : List Nat → Bool

inductive Found where
  /-- the text in `pathname` -/
  | path (p : List Nat)
  /-- "Cannot find executable" -/
  | none
  /-- "exec: File name too long" -/
  | tooLong
  /-- a write outside the array -/
  | bad
deriving Repr, DecidableEq

/-- store the characters `l` from index `i` on -/
def store (buf : List Nat) (i : Nat) (l : List Nat) : Option (List Nat) :=
  if i + l.length ≤ buf.length then some (buf.take i ++ l ++ buf.drop (i + l.length)) else none

/-- the text in the array, up to its NUL -/
def cstr (buf : List Nat) : List Nat := buf.takeWhile (· != 0)

/-- `strchr(path, ':') - path`, src/strace.c:1729-1734; the length of the text if there is no colon -/
def colonAt : List Nat → Nat
  | [] => 0
  | c :: t => if c = 58 then 0 else colonAt t + 1

/-- src/strace.c:1735-1745: the array with the directory and its length; `none` is `continue` -/
def putDir (S : Sys) (path : List Nat) (n : Nat) (buf : List Nat) : Option (Option (List Nat × Nat)) :=
  if n = 0 then
    match S.cwd with
    | none => some none
    | some d =>
      if d.length ≥ PATH_MAX then some none
      else (store buf 0 (d ++ [0])).map fun b => some (b, d.length)
  else if n > PATH_MAX - 1 then some none
  else (store buf 0 (path.take n)).map fun b => some (b, n)

/-- src/strace.c:1746-1747 -/
def putSlash (buf : List Nat) (len : Nat) : Option (List Nat × Nat) :=
  if len ≠ 0 ∧ buf.getD (len - 1) 0 ≠ 47 then (store buf len [47]).map fun b => (b, len + 1)
  else some (buf, len)

/-- src/strace.c:1746-1757: `some (some b)` is `break`, `some none` is `continue` (the array then holds whatever was
written, `buf'`), `none` is a write outside the array -/
def tryDir (S : Sys) (filename : List Nat) (buf : List Nat) (len : Nat) : Option (List Nat × Bool) :=
  match putSlash buf len with
  | none => none
  | some (b, len) =>
    if filename.length + len > PATH_MAX - 1 then some (b, false)
    else match store b len (filename ++ [0]) with
      | none => none
      | some b => some (b, S.exec (cstr b))

/-- src/strace.c:1728-1760: the loop over the entries of PATH -/
def searchLoop (S : Sys) (filename : List Nat) (path : List Nat) (buf : List Nat) : Found :=
  match path with
  | [] => .none
  | c :: t =>
    let n := colonAt (c :: t)
    let m := if n < (c :: t).length then n + 1 else n
    match putDir S (c :: t) n buf with
    | none => .bad
    | some none => searchLoop S filename ((c :: t).drop m) buf
    | some (some (b, len)) =>
      match tryDir S filename b len with
      | none => .bad
      | some (b, true) => .path (cstr b)
      | some (b, false) => searchLoop S filename ((c :: t).drop m) b
termination_by path.length
decreasing_by
  all_goals
    simp_all only [List.length_drop, List.length_cons, colonAt]
    split <;> split at * <;> omega

/-- src/strace.c:1717-1764: `pathname`, from `argv[0]` and the value of PATH; `buf` is the uninitialised array -/
def findProgram (S : Sys) (filename : List Nat) (path : Option (List Nat)) (buf : List Nat) : Found :=
  if filename.length > PATH_MAX - 1 then .tooLong
  else if filename.contains 47 then
    match store buf 0 (filename ++ [0]) with
    | none => .bad
    | some b => .path (cstr b)
  else
    match path with
    | none => .none
    | some p => searchLoop S filename p buf

end Strace.Cli
