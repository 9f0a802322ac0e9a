import Verif.Quote.Model
import Verif.Base.Dec
import Verif.Filter.Model
/-!
# SELinux contexts: src/secontext.c

libselinux and the file system are given functions (`World`). Strings have no NUL.
-/
namespace Strace.Secon
open Strace.Filter (codes)

/-- `strchr(s, ':')`: what comes before the first colon, and what comes after it, if there is one -/
def cut : List Nat → List Nat × Option (List Nat)
  | [] => ([], none)
  | c :: r => if c = 58 then ([], some r) else (c :: (cut r).1, (cut r).2)

/-- the loop of `parse_secontext`, src/secontext.c:40-51, with `left` turns to go before the type; `whole` is the context itself, which
is shown if there are not enough fields -/
def typeLoop (whole : List Nat) : Nat → List Nat → List Nat
  | 0, start => (cut start).1
  | left + 1, start =>
    match (cut start).2 with
    | none => whole
    | some r => typeLoop whole left r

/-- the loop that strips newlines, src/secontext.c:58-59 -/
def stripLen (s : List Nat) : Nat → Nat
  | 0 => 0
  | n + 1 => if s[n]? = some 10 then stripLen s n else n + 1

/-- `parse_secontext`, src/secontext.c:29-62: the part to print -/
def parse (full : Bool) (s : List Nat) : List Nat :=
  let p := if full then s else typeLoop s 2 s
  p.take (stripLen p p.length)

/-- `print_quoted_string_ex` with the style of `print_context`, src/secontext.c:212-216: `x` tells whether -x was given -/
def quote (x : Bool) (s : List Nat) : List Nat :=
  (Quote.stringQuote s 0 ⟨false, true, false, false, false, if x then .nonAsciiChars else .none⟩ (codes "[]!")).1

/-- `print_context`, src/secontext.c:206-237 -/
def context (full x : Bool) (ctx : List Nat) (expected : Option (List Nat)) : List Nat :=
  quote x (parse full ctx) ++
    match expected with
    | none => []
    | some e => if parse full ctx ≠ parse full e then codes "!!" ++ quote x (parse full e) else []

/-- the option --secontext: whether anything was asked for, `full` and `mismatch` -/
structure Config where
  enabled : Bool
  full : Bool
  mismatch : Bool
  x : Bool
  deriving DecidableEq

/-- the answers of getfilecon(3), realpath(3), stat(2) and selabel_lookup(3), and of readlink(2) on the link of a descriptor as far as it fits -/
structure World where
  getfilecon : List Nat → Option (List Nat)
  realpath : List Nat → Option (List Nat)
  mode : List Nat → Option Nat
  expected : List Nat → Nat → Option (List Nat)
  fdPath : Nat → Int → Option (List Nat)

/-- AT_FDCWD -/
def atFdcwd : Int := -100

/-- the name under /proc that `selinux_getfilecon` looks up, src/secontext.c:164-180; PATH_MAX is 4096 -/
def fileName (pid : Nat) (dirfd : Int) (path : List Nat) : Option (List Nat) :=
  let name :=
    if path.head? = some 47 then some (codes "/proc/" ++ Base.dec pid ++ codes "/root" ++ path)
    else if dirfd = atFdcwd then some (codes "/proc/" ++ Base.dec pid ++ codes "/cwd/" ++ path)
    else if dirfd ≥ 0 then some (codes "/proc/" ++ Base.dec pid ++ codes "/fd/" ++ Base.dec dirfd.toNat ++ codes "/" ++ path)
    else none
  match name with
  | none => none
  | some n => if n.length ≥ 4096 then none else some n

/-- `selinux_getfilecon`, src/secontext.c:153-204; the pid is 0 if it is not known in strace's namespace -/
def fileCon (w : World) (c : Config) (pid : Nat) (dirfd : Int) (path : List Nat) : Option (List Nat × Option (List Nat)) :=
  if !c.enabled || pid == 0 then none
  else
    match fileName pid dirfd path with
    | none => none
    | some n =>
      match w.getfilecon n with
      | none => none
      | some ctx =>
        if !c.mismatch then some (ctx, none)
        else
          match w.realpath n with
          | none => some (ctx, none)
          | some r =>
            match w.mode r with
            | none => some (ctx, none)
            | some m => some (ctx, w.expected r m)

/-- `selinux_getfdcon`, src/secontext.c:109-146 -/
def fdCon (w : World) (c : Config) (pid : Nat) (fd : Int) : Option (List Nat × Option (List Nat)) :=
  if !c.enabled || decide (fd < 0) || pid == 0 then none
  else
    let link := codes "/proc/" ++ Base.dec pid ++ codes "/fd/" ++ Base.dec fd.toNat
    match w.getfilecon link with
    | none => none
    | some ctx =>
      if !c.mismatch then some (ctx, none)
      else
        match w.fdPath pid fd with
        | none => some (ctx, none)
        | some path =>
          match w.mode link with
          | none => some (ctx, none)
          | some m => some (ctx, w.expected path m)

/-- `selinux_printfdcon` and `selinux_printfilecon`, src/secontext.c:239-267 -/
def attach (c : Config) (r : Option (List Nat × Option (List Nat))) : List Nat :=
  match r with
  | none => []
  | some (ctx, e) => codes " [" ++ context c.full c.x ctx e ++ codes "]"

/-! ## which directory a path is looked up in -/

/-- what a decoder does about directories and paths: `print_dirfd` or the same by hand, and `printpath`; by number of argument -/
inductive Op where
  | dir (arg : Nat)
  | path (arg : Nat)
  deriving DecidableEq

/-- the calls modelled; `onePath n` stands for the calls whose only path is argument `n`, looked up in the current directory -/
inductive Call where
  | onePath (n : Nat) | link
  | at1   -- openat, openat2, faccessat, faccessat2, fchmodat, fchmodat2, execveat, fchownat, name_to_handle_at, fspick, mknodat, mount_setattr,
          -- open_tree, readlinkat, newfstatat, statx, futimesat, utimensat, setxattrat and the like, unlinkat, mkdirat
  | at2   -- renameat, renameat2, linkat, move_mount
  | symlinkat | fanotifyMark | fsconfigPath | getdents (n : Nat)
  deriving DecidableEq

/-- the decoders: src/open.c:113-208, src/access.c:15-57, src/chmod.c:12-55, src/execve.c:99-135, src/fchownat.c:10-32,
src/file_handle.c:38-49, src/fspick.c:12-26, src/mknod.c:20-61, src/mount_setattr.c:56-78, src/open_tree.c:14-28,
src/readlink.c:17-58, src/stat.c:21-66, src/statx.c:30-38, src/utimes.c:17-64, src/xattr.c:55-335, src/renameat.c:10-48,
src/link.c:18-84, src/move_mount.c:12-33, src/fanotify.c:45-75, src/fsconfig.c:44-74, src/xgetdents.c:118-146 (the names of `n` entries,
here argument 1 for each) -/
def ops : Call → List Op
  | .onePath n => [.path n]
  | .link => [.path 0, .path 1]
  | .at1 => [.dir 0, .path 1]
  | .at2 => [.dir 0, .path 1, .dir 2, .path 3]
  | .symlinkat => [.path 0, .dir 1, .path 2]
  | .fanotifyMark => [.dir 3, .path 4]
  | .fsconfigPath => [.path 3, .dir 4]
  | .getdents n => .dir 0 :: List.replicate n (.path 1)

/-- one step: `last_dirfd` is set, src/open.c:62, or used, src/secontext.c:170-175; the lookups are pairs of directory and argument -/
def step (args : Nat → Int) (st : Int × List (Int × Nat)) : Op → Int × List (Int × Nat)
  | .dir a => (args a, st.2)
  | .path a => (st.1, st.2 ++ [(st.1, a)])

/-- the lookups of a call, and `last_dirfd` after it: reset in `syscall_exiting_finish`, src/syscall.c:1040 -/
def call (last : Int) (c : Call) (args : Nat → Int) : Int × List (Int × Nat) :=
  (atFdcwd, ((ops c).foldl (step args) (last, [])).2)

/-- the lookups of all calls of a tracee; `last_dirfd` is set by `alloctcb`, src/strace.c:1065 -/
def history : Int → List (Call × (Nat → Int)) → List (List (Int × Nat))
  | _, [] => []
  | last, (c, args) :: r => (call last c args).2 :: history (call last c args).1 r

end Strace.Secon
