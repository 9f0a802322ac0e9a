import Verif.Path.Model

/-!
# Which arguments of a system call are descriptors or path names

Written from the kernel's system call interface (section 2 of the manual), not from the code.
-/
namespace Strace.Path

/-- the two system call interfaces covered -/
inductive Abi
  | x86_64 | i386
  deriving DecidableEq

/-- One way a system call names files.
* `fd i`: argument `i` is a descriptor
* `path i`: argument `i` is the address of a path name
* `sets`: argument 0 is a count, arguments 1 to 3 are addresses of sets of descriptors
* `polls`: argument 0 is the address of an array of `struct pollfd`, argument 1 its length
* `blockFd i`: argument 0 is the address of six words, of which word `i` is a descriptor
* `blockSets`: argument 0 is the address of five words, to be read as in `sets`
* `fsconfig`: if argument 1 is `FSCONFIG_SET_PATH` (3) or `FSCONFIG_SET_PATH_EMPTY` (4), argument 3 is a path
  name and argument 4 a descriptor; if it is `FSCONFIG_SET_FD` (5), argument 4 is a descriptor
* `range i j`: all descriptors from argument `i` to argument `j` -/
inductive Use
  | fd (i : Nat) | path (i : Nat) | sets | polls | blockFd (i : Nat) | blockSets | fsconfig | range (i j : Nat)
  deriving DecidableEq

/-- descriptors and path names among the arguments of each call. Data that is only stored (the target of a
symbolic link), names that are not paths (of message queues, file systems, memory files), and descriptors inside
of structures other than those above are not counted. -/
def uses (abi : Abi) : Call → List Use
  | .read | .write | .close | .fstat | .lseek | .ioctl | .pread64 | .pwrite64 | .readv | .writev | .dup | .connect
  | .accept | .sendto | .recvfrom | .sendmsg | .recvmsg | .shutdown | .bind | .listen | .getsockname | .getpeername
  | .setsockopt | .getsockopt | .fcntl | .flock | .fsync | .fdatasync | .ftruncate | .getdents | .fchdir | .fchmod
  | .fchown | .fstatfs | .getpmsg | .putpmsg | .readahead | .fsetxattr | .fgetxattr | .flistxattr | .fremovexattr
  | .getdents64 | .fadvise64 | .epoll_wait | .mq_timedsend | .mq_timedreceive | .mq_notify | .mq_getsetattr
  | .inotify_rm_watch | .sync_file_range | .vmsplice | .epoll_pwait | .signalfd | .fallocate | .timerfd_settime
  | .timerfd_gettime | .accept4 | .signalfd4 | .preadv | .pwritev | .recvmmsg | .open_by_handle_at | .syncfs
  | .sendmmsg | .setns | .finit_module | .preadv2 | .pwritev2 | .pidfd_send_signal | .io_uring_enter
  | .io_uring_register | .fsmount | .pidfd_getfd | .process_madvise | .epoll_pwait2 | .quotactl_fd
  | .landlock_add_rule | .landlock_restrict_self | .process_mrelease | .cachestat | .oldfstat | .readdir
  | .«_llseek» | .ftruncate64 | .fstat64 | .fchown32 | .fcntl64 | .fstatfs64 | .fadvise64_64 | .timerfd_gettime64
  | .timerfd_settime64 | .recvmmsg_time64 | .mq_timedsend_time64 | .mq_timedreceive_time64 => [.fd 0]
  | .«open» | .stat | .lstat | .access | .execve | .truncate | .chdir | .mkdir | .rmdir | .creat | .unlink
  | .readlink | .chmod | .chown | .lchown | .utime | .mknod | .uselib | .statfs | .chroot | .acct | .umount2
  | .swapon | .swapoff | .setxattr | .lsetxattr | .getxattr | .lgetxattr | .listxattr | .llistxattr | .removexattr
  | .lremovexattr | .utimes | .oldstat | .umount | .oldlstat | .truncate64 | .stat64 | .lstat64 | .lchown32
  | .chown32 | .statfs64 => [.path 0]
  | .rename | .link | .mount | .pivot_root => [.path 0, .path 1]
  | .symlink | .quotactl => [.path 1]
  | .inotify_add_watch | .openat | .mkdirat | .mknodat | .fchownat | .futimesat | .newfstatat | .fstatat64
  | .unlinkat | .readlinkat | .fchmodat | .faccessat | .utimensat | .utimensat_time64 | .name_to_handle_at
  | .execveat | .statx | .open_tree | .fspick | .openat2 | .faccessat2 | .mount_setattr | .fchmodat2 | .setxattrat
  | .getxattrat | .listxattrat | .removexattrat => [.fd 0, .path 1]
  | .renameat | .linkat | .renameat2 | .move_mount => [.fd 0, .path 1, .fd 2, .path 3]
  | .dup2 | .dup3 | .sendfile | .sendfile64 | .tee | .kexec_file_load => [.fd 0, .fd 1]
  | .splice | .copy_file_range | .epoll_ctl => [.fd 0, .fd 2]
  | .poll | .ppoll | .ppoll_time64 => [.polls]
  | .«_newselect» | .pselect6 | .pselect6_time64 => [.sets]
  | .mmap2 => [.fd 4]
  | .symlinkat => [.fd 1, .path 2]
  | .fsconfig => [.fd 0, .fsconfig]
  | .perf_event_open => [.fd 3]
  | .close_range => [.range 0 1]
  | .mmap => (match abi with | .x86_64 => [.fd 4] | .i386 => [.blockFd 4])
  | .select => (match abi with | .x86_64 => [.sets] | .i386 => [.blockSets])
  -- the mask at position 2 takes two arguments on i386
  | .fanotify_mark => (match abi with | .x86_64 => [.fd 0, .fd 3, .path 4] | .i386 => [.fd 0, .fd 4, .path 5])
  | _ => []

/-- an open file: its path name, and whether that name has been removed -/
structure File where
  name : List Nat
  unlinked : Bool

/-- `" (deleted)"` -/
def deletedMark : List Nat := " (deleted)".toList.map Char.toNat

/-- What the kernel promises about `/proc/PID/fd` for a process whose descriptors are `openFiles`: links give the name of
the file, marked if it was removed; `lstat` of a name that was not removed gives the file itself. We assume that no
other name of a removed file is its old name with the mark appended, and that a name that can be removed has at least
two bytes (`/` cannot). The word size is 4 or 8 and reads return as many bytes as were asked for. -/
structure Kernel (abi : Abi) (w : World) (openFiles : Nat → Option File) : Prop where
  closed : ∀ n, openFiles n = none → w.link n = none
  link : ∀ n f, openFiles n = some f → w.link n = some (f.name ++ if f.unlinked then deletedMark else [])
  stat : ∀ n f, openFiles n = some f → w.statOk n = true
  present : ∀ n f, openFiles n = some f → f.unlinked = false → w.same n f.name = true
  removed : ∀ n f, openFiles n = some f → f.unlinked = true →
    w.same n (f.name ++ deletedMark) = false ∧ 2 ≤ f.name.length
  words : w.wordsize = 4 ∨ w.wordsize = 8
  reads : ∀ a n l, w.mem a n = some l → l.length = n
  after64 : w.llArg = match abi with | .x86_64 => 3 | .i386 => 4

/-- the descriptor an argument register holds: its low 32 bits, if not negative as an `int` -/
def FdArg (a n : Nat) : Prop := a % 2 ^ 32 = n ∧ n < 2 ^ 31

/-- the user asked for descriptor `n`, or for the path of the file it refers to -/
def Wanted (paths : List (List Nat)) (fds : Option (Nat → Bool)) (openFiles : Nat → Option File) (n : Nat) : Prop :=
  (∃ f, fds = some f ∧ f n = true) ∨ ∃ f, openFiles n = some f ∧ f.name ∈ paths

/-- bit `j` of a descriptor set in the tracee's memory (little endian) -/
def InSet (bytes : List Nat) (j : Nat) : Prop := (bytes.getD (j / 8) 0).testBit (j % 8) = true

/-- `select`: descriptor `n` is in one of the sets, below the count (and below 2^20, where strace stops looking);
sets are as large as the count asks for, rounded up to words, and must be readable -/
def InSets (w : World) (args : List Nat) (n : Nat) : Prop :=
  ∃ count, FdArg (args.getD 0 0) count ∧ n < min count (2 ^ 20) ∧
  ∃ i, (i = 1 ∨ i = 2 ∨ i = 3) ∧ args.getD i 0 ≠ 0 ∧
  ∃ size bytes, w.wordsize ∣ size ∧ min count (2 ^ 20) ≤ 8 * size ∧ 8 * size < min count (2 ^ 20) + 8 * w.wordsize ∧
    w.mem (args.getD i 0) size = some bytes ∧ InSet bytes n

/-- `poll`: descriptor `n` is in one of the first 2^20 elements of the array, all elements up to it being readable, and
the part looked at does not reach the end of the address space -/
def InPolls (w : World) (args : List Nat) (n : Nat) : Prop :=
  args.getD 0 0 + 8 * min (args.getD 1 0 % 2 ^ 32) (2 ^ 20) < 2 ^ 64 ∧
  ∃ i < min (args.getD 1 0 % 2 ^ 32) (2 ^ 20),
    (∀ k ≤ i, ∃ b, w.mem (args.getD 0 0 + 8 * k) 8 = some b) ∧
    ∃ b, w.mem (args.getD 0 0 + 8 * i) 8 = some b ∧
      FdArg (b.getD 0 0 + 256 * b.getD 1 0 + 65536 * b.getD 2 0 + 16777216 * b.getD 3 0) n

/-- descriptor `n` is named by a use -/
def NamesFd (w : World) (args : List Nat) (n : Nat) : Use → Prop
  | .fd i => FdArg (args.getD i 0) n
  | .path _ => False
  | .sets => InSets w args n
  | .polls => InPolls w args n
  | .blockFd i => ∃ b, w.block (args.getD 0 0) 6 = some b ∧ FdArg (b.getD i 0) n
  | .blockSets => ∃ b, w.block (args.getD 0 0) 5 = some b ∧ InSets w b n
  | .fsconfig => args.getD 1 0 % 2 ^ 32 ∈ [3, 4, 5] ∧ FdArg (args.getD 4 0) n
  | .range i j => args.getD i 0 % 2 ^ 32 ≤ n ∧ n ≤ args.getD j 0 % 2 ^ 32

/-- path `p` is named by a use -/
def NamesPath (w : World) (args : List Nat) (p : List Nat) : Use → Prop
  | .path i => w.str (args.getD i 0) = some p
  | .fsconfig => args.getD 1 0 % 2 ^ 32 ∈ [3, 4] ∧ w.str (args.getD 3 0) = some p
  | _ => False

/-- the call names something the user asked for -/
def Concerned (abi : Abi) (w : World) (openFiles : Nat → Option File) (paths : List (List Nat))
    (fds : Option (Nat → Bool)) (c : Call) (args : List Nat) : Prop :=
  ∃ u ∈ uses abi c, (∃ n, NamesFd w args n u ∧ Wanted paths fds openFiles n) ∨ ∃ p ∈ paths, NamesPath w args p u

/-- the paths asked for with `-P`: as given, and in canonical form -/
def Asked (realpath : List Nat → Option (List Nat)) (given : List (List Nat)) (p : List Nat) : Prop :=
  ∃ g ∈ given, p = g ∨ realpath g = some p

/-- the rows of an interface -/
def rowsOf : Abi → List Row
  | .x86_64 => x86_64
  | .i386 => i386

end Strace.Path
