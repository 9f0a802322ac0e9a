/-!
# Descriptors of strace, of the program it runs and of the command the output is piped to: src/strace.c

A descriptor table is a list whose `i`-th element says what descriptor `i` refers to, `none` being closed; descriptors
past the end are closed.  Opening takes the lowest closed descriptor (open(2), pipe(2)).  Limits on the number of
descriptors, failing calls (they all end in `perror_msg_and_die`) and `swap_uid` are not modelled.
-/
namespace Strace.Fds

/-- what a descriptor refers to -/
inductive File
  /-- something that was open when strace was started -/
  | orig (n : Nat)
  /-- the reading and the writing end of a placeholder's pipe, src/strace.c:1651-1660 -/
  | dummyR
  | dummyW
  /-- the file named by -o -/
  | log
  /-- the reading and the writing end of the pipe to the command named by -o, src/strace.c:693-729 -/
  | cmdR
  | cmdW
  deriving DecidableEq, Repr

/-- an open descriptor; `cloexec` is FD_CLOEXEC -/
structure Ent where
  file : File
  cloexec : Bool
  deriving DecidableEq, Repr

/-- a descriptor table -/
abbrev Table := List (Option Ent)

/-- what descriptor `i` is -/
def get : Table → Nat → Option Ent
  | [], _ => none
  | e :: _, 0 => e
  | _ :: t, i + 1 => get t i

/-- make descriptor `i` refer to `e` -/
def put : Table → Nat → Option Ent → Table
  | [], 0, e => [e]
  | [], i + 1, e => none :: put [] i e
  | _ :: t, 0, e => e :: t
  | d :: t, i + 1, e => d :: put t i e

/-- the lowest closed descriptor -/
def lowest : Table → Nat
  | [] => 0
  | none :: _ => 0
  | some _ :: t => lowest t + 1

/-- open(2) -/
def openf (t : Table) (f : File) : Nat × Table :=
  (lowest t, put t (lowest t) (some ⟨f, false⟩))

/-- pipe(2): the reading end comes first -/
def pipe (t : Table) (r w : File) : Nat × Nat × Table :=
  ((openf t r).1, (openf (openf t r).2 w).1, (openf (openf t r).2 w).2)

/-- close(2) -/
def close (t : Table) (i : Nat) : Table := put t i none

/-- `flags | FD_CLOEXEC` of a descriptor -/
def withCloexec (e : Option Ent) : Option Ent :=
  match e with
  | none => none
  | some e => some ⟨e.file, true⟩

/-- `set_cloexec_flag`, src/strace.c:630-651; the flag is set on an open descriptor only, the message for a bad one
does not arise -/
def setCloexec (t : Table) (i : Nat) : Table := put t i (withCloexec (get t i))

/-- dup2(2) -/
def dup2 (t : Table) (i j : Nat) : Table :=
  put t j (match get t i with | none => none | some e => some ⟨e.file, false⟩)

/-- a descriptor after execve(2) -/
def kept (e : Option Ent) : Option Ent :=
  match e with
  | none => none
  | some e => if e.cloexec then none else some e

/-- execve(2) -/
def exec (t : Table) : Table := t.map kept

/-- `open_dummy_desc`, src/strace.c:1650-1660 -/
def openDummy (t : Table) : Nat × Table :=
  ((pipe t .dummyR .dummyW).1,
   setCloexec (close (pipe t .dummyR .dummyW).2.2 (pipe t .dummyR .dummyW).2.1) (pipe t .dummyR .dummyW).1)

/-- `fd_is_placeholder`, src/strace.c:1663 -/
structure Ph where
  p0 : Bool
  p1 : Bool
  deriving DecidableEq, Repr

/-- `fd_is_placeholder[fd] = true`, src/strace.c:1680 -/
def mark (ph : Ph) (fd : Nat) : Ph :=
  if fd = 0 then ⟨true, ph.p1⟩ else ⟨ph.p0, true⟩

/-- `ensure_standard_fds_opened`, src/strace.c:1672-1685; `none` is more than `n` turns of the loop -/
def ensure : Nat → Table → Ph → Option (Table × Ph)
  | 0, _, _ => none
  | n + 1, t, ph =>
    if (openDummy t).1 ≤ 2 then
      if (openDummy t).1 = 2 then some ((openDummy t).2, ph)
      else ensure n (openDummy t).2 (mark ph (openDummy t).1)
    else some (close (openDummy t).2 (openDummy t).1, ph)

/-- `strace_fopen`, src/strace.c:667-679: the descriptor and the table -/
def straceFopen (t : Table) : Nat × Table :=
  ((openf t .log).1, setCloexec (openf t .log).2 (openf t .log).1)

/-- the pipe of `strace_popen` when it forks, src/strace.c:699-703 -/
def popenFork (t : Table) : Nat × Nat × Table :=
  ((pipe t .cmdR .cmdW).1, (pipe t .cmdR .cmdW).2.1, setCloexec (pipe t .cmdR .cmdW).2.2 (pipe t .cmdR .cmdW).2.1)

/-- the child of `strace_popen`, src/strace.c:709-717: the table of the command -/
def popenChild (t : Table) (r w : Nat) : Table :=
  if r ≠ 0 then exec (close (dup2 (close t w) r 0) r) else exec (close t w)

/-- the parent of `strace_popen`, src/strace.c:722-728: `fdopen(fds[1])` is the stream -/
def popenParent (t : Table) (r : Nat) : Table := close t r

/-- where the output goes, src/strace.c:3061-3087; `separate` is -ff with -o -/
inductive Dest
  | stderr
  | file
  | command
  | separate
  deriving DecidableEq, Repr

/-- after the output has been opened: the table, `fd_to_close` (src/strace.c:1767), and the table of the command -/
structure Opened where
  tab : Table
  toClose : Option Nat
  command : Option Table

/-- src/strace.c:3061-3087 -/
def openLog (t : Table) : Dest → Opened
  | .stderr => ⟨t, none, none⟩
  | .separate => ⟨t, none, none⟩
  | .file => ⟨(straceFopen t).2, some (straceFopen t).1, none⟩
  | .command =>
    ⟨popenParent (popenFork t).2.2 (popenFork t).1, some (popenFork t).2.1,
     some (popenChild (popenFork t).2.2 (popenFork t).1 (popenFork t).2.1)⟩

/-- the tracee-to-be: src/strace.c:1578-1579 and 1640 -/
def program (t : Table) (toClose : Option Nat) : Table :=
  match toClose with
  | some fd => exec (close t fd)
  | none => exec t

/-- one turn of `redirect_standard_fds`, src/strace.c:1699-1702 -/
def redirect1 (t : Table) (ph : Bool) (i : Nat) : Table :=
  if ph then t else (openDummy (close t i)).2

/-- `redirect_standard_fds`, src/strace.c:1691-1704 -/
def redirect (t : Table) (ph : Ph) : Table := redirect1 (redirect1 t ph.p0 0) ph.p1 1

/-- the log of the program with -ff, opened by `after_successful_attach` (src/strace.c:964-972) before the
redirection unless the tracer is daemonized (src/strace.c:1832-1836) -/
def ownLog (t : Table) (d : Dest) (daemon : Bool) : Option Nat × Table :=
  if d = .separate ∧ daemon = false then (some (straceFopen t).1, (straceFopen t).2) else (none, t)

/-- the three processes, and the descriptor strace writes its output to -/
structure Outcome where
  program : Table
  tracer : Table
  command : Option Table
  logFd : Option Nat

/-- the part of `init` that is about descriptors, src/strace.c:3058-3087, and `startup_child`, src/strace.c:1706-1885.
The fork makes two equal tables. -/
def run (t : Table) (d : Dest) (daemon : Bool) : Option Outcome :=
  match ensure 4 t ⟨false, false⟩ with
  | none => none
  | some (t1, ph) =>
    some { program := program (openLog t1 d).tab (openLog t1 d).toClose
           tracer := redirect (ownLog (openLog t1 d).tab d daemon).2 ph
           command := (openLog t1 d).command
           logFd := match (openLog t1 d).toClose with
             | some fd => some fd
             | none => (ownLog (openLog t1 d).tab d daemon).1 }

/-- what the tracer does with descriptors later: it opens files (-ff logs, src/strace.c:964-972, files of /proc), sets
FD_CLOEXEC on some, and closes what it opened -/
inductive Later
  | open_
  | close_ (fd : Nat)

/-- the table after some of these, and the descriptors opened, the latest first; only a descriptor that was opened
here is closed -/
def later : Table → List Later → List Nat → Table × List Nat
  | t, [], o => (t, o)
  | t, .open_ :: l, o => later (openf t .log).2 l ((openf t .log).1 :: o)
  | t, .close_ fd :: l, o => if fd ∈ o then later (close t fd) l o else later t l o

end Strace.Fds
