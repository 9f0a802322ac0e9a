import Verif.Path.Table
import Verif.Bits.Model

/-!
# Model of `-P` and `--trace-fds` (src/pathtrace.c)

Paths are lists of byte values without the terminating NUL. What strace learns from the tracee and from the
system is a `World`; any read may fail.
-/
namespace Strace.Path
open Strace.Bits

/-- What the code can find out, at one system call of a tracee.
* `str`: result of `umovestr` with a buffer of `PATH_MAX + 1` bytes: the string before its NUL, or `none`
* `mem`: result of `umoven`
* `block`: result of `fetch_indirect_syscall_args` (src/util.c): the given number of argument words
* `link`: text of `/proc/PID/fd/N` (`readlink` with a buffer one byte shorter than the caller's)
* `statOk`: `stat` of that link succeeds
* `same`: `lstat` of a path succeeds and gives the device and inode of the descriptor
* `wordsize`: `current_wordsize`
* `llArg`: first argument after a 64-bit one at position 2, i.e. what `getllval(tcp, &mask, 2)` returns -/
structure World where
  str : Nat → Option (List Nat)
  mem : Nat → Nat → Option (List Nat)
  block : Nat → Nat → Option (List Nat)
  link : Nat → Option (List Nat)
  statOk : Nat → Bool
  same : Nat → List Nat → Bool
  wordsize : Nat
  llArg : Nat

/-- what the user selected: the paths stored and, if `--trace-fds` was given, the descriptors -/
structure Selection where
  paths : List (List Nat)
  fds : Option (Nat → Bool)

/-- `pathmatch`, src/pathtrace.c 27-38 -/
def pathmatch (p : List Nat) (set : List (List Nat)) : Bool := set.any (· == p)

/-- `storepath`, src/pathtrace.c 75-87; growing the array (C49) is not part of this model -/
def storepath (p : List Nat) (set : List (List Nat)) : List (List Nat) :=
  if pathmatch p set then set else set ++ [p]

/-- `pathtrace_select_set`, src/pathtrace.c 169-200: the path and its canonical form, if it has one. The
message about the resolved path is not modelled. -/
def selectSet (realpath : List Nat → Option (List Nat)) (p : List Nat) (set : List (List Nat)) : List (List Nat) :=
  let set := storepath p set
  match realpath p with
  | none => set
  | some r => if p = r then set else storepath r set

/-- all `-P` options in turn -/
def selectAll (realpath : List Nat → Option (List Nat)) (ps : List (List Nat)) : List (List Nat) :=
  ps.foldl (fun s p => selectSet realpath p s) []

/-- `" (deleted)"`, `del_sfx`, src/pathtrace.c 121 -/
def delSfx : List Nat := [32, 40, 100, 101, 108, 101, 116, 101, 100, 41]

/-- `get_proc_pid_fd_path`, src/pathtrace.c 89-149: the path and `*deleted`. `sizeof(del_sfx)` counts the
NUL. The returned length is used by no caller except for its sign. -/
def fdPath (w : World) (fd : Int) : Option (List Nat × Bool) :=
  if fd < 0 then none
  else
    match w.link fd.toNat with
    | none => none
    | some buf =>
      if buf.length ≤ delSfx.length + 1 then some (buf, false)
      else if buf.drop (buf.length - delSfx.length) ≠ delSfx then some (buf, false)
      else if w.statOk fd.toNat = false then some (buf, false)
      else if w.same fd.toNat buf then some (buf, false)
      else some (buf.take (buf.length - delSfx.length), true)

/-- conversion of an argument register to `int` -/
def toInt (a : Nat) : Int := if a % 2 ^ 32 < 2 ^ 31 then (a % 2 ^ 32 : Nat) else (a % 2 ^ 32 : Nat) - 2 ^ 32

/-- `fdmatch`, src/pathtrace.c 58-70 -/
def fdmatch (w : World) (s : Selection) (fd : Int) : Bool :=
  (match s.fds with
   | some f => decide (0 ≤ fd) && f fd.toNat
   | none => false) ||
  (match fdPath w fd with
   | some (p, _) => pathmatch p s.paths
   | none => false)

/-- `upathmatch`, src/pathtrace.c 43-53 -/
def upathmatch (w : World) (s : Selection) (a : Nat) : Bool :=
  match w.str a with
  | some p => pathmatch p s.paths
  | none => false

/-- argument `i` -/
def arg (args : List Nat) (i : Nat) : Nat := args.getD i 0

/-- one iteration of the loop over the three sets in `match_xselect_args`, src/pathtrace.c 218-231, little
endian; `none` is an access outside of the buffer -/
def setMatch (w : World) (s : Selection) (nfds fdsize a : Nat) : Option Bool :=
  if a = 0 then some false
  else
    match w.mem a fdsize with
    | none => some false
    | some fds => (scan fds 0 nfds 0).map (fun l => l.any (fun j => fdmatch w s j))

/-- `match_xselect_args`, src/pathtrace.c 202-235 -/
def xselect (w : World) (s : Selection) (args : List Nat) : Option Bool :=
  let n := toInt (arg args 0)
  if n ≤ 0 then some false
  else
    let nfds := if n > 1024 * 1024 then 1024 * 1024 else n.toNat
    let fdsize := ((nfds + 7) / 8 + w.wordsize - 1) / w.wordsize * w.wordsize
    match setMatch w s nfds fdsize (arg args 1) with
    | none => none
    | some true => some true
    | some false =>
      match setMatch w s nfds fdsize (arg args 2) with
      | none => none
      | some true => some true
      | some false => setMatch w s nfds fdsize (arg args 3)

/-- the descriptor of a `struct pollfd`: its first four bytes, little endian -/
def pollFd (b : List Nat) : Int :=
  toInt (b.getD 0 0 + 256 * b.getD 1 0 + 65536 * b.getD 2 0 + 16777216 * b.getD 3 0)

/-- the loop over `struct pollfd`, src/pathtrace.c 393-398. `fuel` bounds the iterations; the caller gives
enough. -/
def pollLoop (w : World) (s : Selection) : Nat → Nat → Nat → Bool
  | 0, _, _ => false
  | fuel + 1, cur, en =>
    if cur < en then
      match w.mem cur 8 with
      | none => false
      | some b => if fdmatch w s (pollFd b) then true else pollLoop w s fuel (cur + 8) en
    else false

/-- the poll case, src/pathtrace.c 376-401 -/
def pollMatch (w : World) (s : Selection) (args : List Nat) : Bool :=
  let start := arg args 0
  let n := arg args 1 % 2 ^ 32
  let nfds := if n > 1024 * 1024 then 1024 * 1024 else n
  let en := (start + 8 * nfds) % 2 ^ 64
  if nfds = 0 ∨ en < start then false else pollLoop w s nfds start en

/-- the groups of labels in the switch of `pathtrace_match_set`, named after what they look at -/
inductive Case
  | fdFd | fdPath | pathPath | xPath | fdPathFdPath | oldMmap | mmap | xFdPath | fdXFd | epollCtl | fanotifyMark
  | oldSelect | select | poll | fsconfig | nothing | fallback
  deriving DecidableEq

/-- the labels of the switch, src/pathtrace.c 258-446 -/
def caseOf : Sen → Case
  | .dup2 | .dup3 | .kexec_file_load | .sendfile | .sendfile64 | .tee => .fdFd
  | .execveat | .faccessat | .faccessat2 | .fchmodat | .fchmodat2 | .fchownat | .fspick | .fstatat64
  | .futimesat | .getxattrat | .inotify_add_watch | .listxattrat | .mkdirat | .mknodat | .mount_setattr
  | .name_to_handle_at | .newfstatat | .open_tree | .openat | .openat2 | .readlinkat | .removexattrat
  | .setxattrat | .statx | .unlinkat | .utimensat_time32 | .utimensat_time64 => .fdPath
  | .link | .mount | .pivotroot => .pathPath
  | .quotactl | .symlink => .xPath
  | .linkat | .move_mount | .renameat2 | .renameat => .fdPathFdPath
  | .old_mmap | .old_mmap_pgoff => .oldMmap
  | .mmap | .mmap_4koff | .mmap_pgoff | .ARCH_mmap => .mmap
  | .symlinkat => .xFdPath
  | .copy_file_range | .splice => .fdXFd
  | .epoll_ctl => .epollCtl
  | .fanotify_mark => .fanotifyMark
  | .oldselect => .oldSelect
  | .pselect6_time32 | .pselect6_time64 | .select => .select
  | .poll_time32 | .poll_time64 | .ppoll_time32 | .ppoll_time64 => .poll
  | .fsconfig => .fsconfig
  | .bpf | .epoll_create | .epoll_create1 | .eventfd2 | .eventfd | .fanotify_init | .fsopen | .inotify_init
  | .inotify_init1 | .io_uring_setup | .landlock_create_ruleset | .memfd_create | .memfd_secret | .mq_open
  | .perf_event_open | .pidfd_open | .pipe | .pipe2 | .printargs | .socket | .socketpair | .timerfd_create
  | .userfaultfd => .nothing
  | _ => .fallback

/-- `pathtrace_match_set`, src/pathtrace.c 241-461 -/
def matchSet (w : World) (s : Selection) (r : Row) (args : List Nat) : Option Bool :=
  let fd := fun i => fdmatch w s (toInt (arg args i))
  let path := fun i => upathmatch w s (arg args i)
  if !(r.file || r.desc || r.net) then some false
  else
    match caseOf r.sen with
    | .fdFd => some (fd 0 || fd 1)
    | .fdPath => some (fd 0 || path 1)
    | .pathPath => some (path 0 || path 1)
    | .xPath => some (path 1)
    | .fdPathFdPath => some (fd 0 || fd 2 || path 1 || path 3)
    | .oldMmap =>
      (match w.block (arg args 0) 6 with
       | none => some false
       | some b => some (fdmatch w s (toInt (arg b 4))))
    | .mmap => some (fd 4)
    | .xFdPath => some (fd 1 || path 2)
    | .fdXFd => some (fd 0 || fd 2)
    | .epollCtl => some (fd 2)
    | .fanotifyMark => some (fd w.llArg || path (w.llArg + 1))
    | .oldSelect =>
      (match w.block (arg args 0) 5 with
       | none => some false
       | some b => xselect w s b)
    | .select => xselect w s args
    | .poll => some (pollMatch w s args)
    | .fsconfig =>
      if arg args 1 % 2 ^ 32 = 3 ∨ arg args 1 % 2 ^ 32 = 4 then some (fd 4 || path 3)
      else if arg args 1 % 2 ^ 32 = 5 then some (fd 4)
      else some false
    | .nothing => some false
    | .fallback => if r.file then some (path 0) else if r.desc || r.net then some (fd 0) else some false

end Strace.Path
