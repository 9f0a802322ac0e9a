/-!
# System call tables for path and descriptor selection

Written by a script from the tables in `/repo/src/linux`.
-/
namespace Strace.Path

/-- the entry kinds `SEN_…` (generated sen.h) that occur in the tables below or in the switch of
src/pathtrace.c 258-446 -/
inductive Sen
  | «ARCH_mmap» | accept | accept4 | access | acct | add_key | adjtimex32 | adjtimex64 | afs_syscall | alarm
  | arch_prctl | bdflush | bind | bpf | break | brk | cachestat | capget | capset | chdir | chmod | chown | chown16
  | chroot | clock_adjtime32 | clock_adjtime64 | clock_getres_time32 | clock_getres_time64 | clock_gettime32
  | clock_gettime64 | clock_nanosleep_time32 | clock_nanosleep_time64 | clock_settime32 | clock_settime64 | clone
  | clone3 | close | close_range | connect | copy_file_range | creat | create_module | delete_module | dup | dup2
  | dup3 | epoll_create | epoll_create1 | epoll_ctl | epoll_pwait | epoll_pwait2 | epoll_wait | eventfd | eventfd2
  | execve | execveat | exit | faccessat | faccessat2 | fadvise64 | fadvise64_64 | fallocate | fanotify_init
  | fanotify_mark | fchdir | fchmod | fchmodat | fchmodat2 | fchown | fchown16 | fchownat | fcntl | fcntl64
  | fdatasync | fgetxattr | finit_module | flistxattr | flock | fork | fremovexattr | fsconfig | fsetxattr
  | fsmount | fsopen | fspick | fstat | fstat64 | fstatat64 | fstatfs | fstatfs64 | fsync | ftime | ftruncate
  | ftruncate64 | futex_requeue | futex_time32 | futex_time64 | futex_wait | futex_waitv | futex_wake | futimesat
  | get_kernel_syms | get_mempolicy | get_robust_list | get_thread_area | getcpu | getcwd | getdents | getdents64
  | getegid | getegid16 | geteuid | geteuid16 | getgid | getgid16 | getgroups | getgroups16 | getitimer
  | getpeername | getpgid | getpgrp | getpid | getpmsg | getppid | getpriority | getrandom | getresgid
  | getresgid16 | getresuid | getresuid16 | getrlimit | getrusage | getsid | getsockname | getsockopt | gettid
  | gettimeofday | getuid | getuid16 | getxattr | getxattrat | gtty | idle | init_module | inotify_add_watch
  | inotify_init | inotify_init1 | inotify_rm_watch | io_cancel | io_destroy | io_getevents_time32
  | io_getevents_time64 | io_pgetevents_time32 | io_pgetevents_time64 | io_setup | io_submit | io_uring_enter
  | io_uring_register | io_uring_setup | ioctl | ioperm | iopl | ioprio_get | ioprio_set | ipc | kcmp
  | kexec_file_load | kexec_load | keyctl | kill | landlock_add_rule | landlock_create_ruleset
  | landlock_restrict_self | link | linkat | listen | listmount | listxattr | listxattrat | llseek | lock
  | lookup_dcookie | lseek | lsm_get_self_attr | lsm_list_modules | lsm_set_self_attr | lstat | lstat64 | madvise
  | map_shadow_stack | mbind | membarrier | memfd_create | memfd_secret | migrate_pages | mincore | mkdir | mkdirat
  | mknod | mknodat | mlock | mlock2 | mlockall | mmap | mmap_4koff | mmap_pgoff | modify_ldt | mount
  | mount_setattr | move_mount | move_pages | mprotect | mpx | mq_getsetattr | mq_notify | mq_open
  | mq_timedreceive_time32 | mq_timedreceive_time64 | mq_timedsend_time32 | mq_timedsend_time64 | mq_unlink
  | mremap | mseal | msgctl | msgget | msgrcv | msgsnd | msync | munlock | munlockall | munmap | name_to_handle_at
  | nanosleep_time32 | nanosleep_time64 | newfstatat | nfsservctl | nice | old_mmap | old_mmap_pgoff | oldfstat
  | oldlstat | oldolduname | oldselect | oldstat | olduname | «open» | open_by_handle_at | open_tree | openat
  | openat2 | pause | perf_event_open | personality | pidfd_getfd | pidfd_open | pidfd_send_signal | pipe | pipe2
  | pivotroot | pkey_alloc | pkey_free | pkey_mprotect | poll_time32 | poll_time64 | ppoll_time32 | ppoll_time64
  | prctl | pread | preadv | preadv2 | printargs | prlimit64 | process_madvise | process_mrelease
  | process_vm_readv | process_vm_writev | prof | profil | pselect6_time32 | pselect6_time64 | ptrace | putpmsg
  | pwrite | pwritev | pwritev2 | query_module | quotactl | quotactl_fd | read | readahead | readdir | readlink
  | readlinkat | readv | reboot | recvfrom | recvmmsg_time32 | recvmmsg_time64 | recvmsg | remap_file_pages
  | removexattr | removexattrat | rename | renameat | renameat2 | request_key | restart_syscall | rmdir | rseq
  | rt_sigaction | rt_sigpending | rt_sigprocmask | rt_sigqueueinfo | rt_sigreturn | rt_sigsuspend
  | rt_sigtimedwait_time32 | rt_sigtimedwait_time64 | rt_tgsigqueueinfo | sched_get_priority_max
  | sched_get_priority_min | sched_getaffinity | sched_getattr | sched_getparam | sched_getscheduler
  | sched_rr_get_interval_time32 | sched_rr_get_interval_time64 | sched_setaffinity | sched_setattr
  | sched_setparam | sched_setscheduler | sched_yield | seccomp | security | select | semctl | semget | semop
  | semtimedop_time64 | sendfile | sendfile64 | sendmmsg | sendmsg | sendto | set_mempolicy
  | set_mempolicy_home_node | set_robust_list | set_thread_area | set_tid_address | setdomainname | setfsgid
  | setfsgid16 | setfsuid | setfsuid16 | setgid | setgid16 | setgroups | setgroups16 | sethostname | setitimer
  | setns | setpgid | setpriority | setregid | setregid16 | setresgid | setresgid16 | setresuid | setresuid16
  | setreuid | setreuid16 | setrlimit | setsid | setsockopt | settimeofday | setuid | setuid16 | setxattr
  | setxattrat | sgetmask | shmat | shmctl | shmdt | shmget | shutdown | sigaction | sigaltstack | signal
  | signalfd | signalfd4 | sigpending | sigprocmask | sigreturn | sigsuspend | socket | socketcall | socketpair
  | splice | ssetmask | stat | stat64 | statfs | statfs64 | statmount | statx | stime | stty | swapoff | swapon
  | symlink | symlinkat | sync | sync_file_range | syncfs | sysctl | sysfs | sysinfo | syslog | tee | tgkill | time
  | timer_create | timer_delete | timer_getoverrun | timer_gettime32 | timer_gettime64 | timer_settime32
  | timer_settime64 | timerfd_create | timerfd_gettime32 | timerfd_gettime64 | timerfd_settime32
  | timerfd_settime64 | times | tkill | truncate | truncate64 | tuxcall | ulimit | umask | umount | umount2 | uname
  | unlink | unlinkat | unshare | uretprobe | uselib | userfaultfd | ustat | utime | utimensat_time32
  | utimensat_time64 | utimes | vfork | vhangup | vm86 | vm86old | vmsplice | vserver | wait4 | waitid | waitpid
  | write | writev
  deriving DecidableEq

/-- names of system calls (last column of the tables) -/
inductive Call
  | «_llseek» | «_newselect» | «_sysctl» | accept | accept4 | access | acct | add_key | adjtimex | afs_syscall
  | alarm | arch_prctl | bdflush | bind | bpf | break | brk | cachestat | capget | capset | chdir | chmod | chown
  | chown32 | chroot | clock_adjtime | clock_adjtime64 | clock_getres | clock_getres_time64 | clock_gettime
  | clock_gettime64 | clock_nanosleep | clock_nanosleep_time64 | clock_settime | clock_settime64 | clone | clone3
  | close | close_range | connect | copy_file_range | creat | create_module | delete_module | dup | dup2 | dup3
  | epoll_create | epoll_create1 | epoll_ctl | epoll_ctl_old | epoll_pwait | epoll_pwait2 | epoll_wait
  | epoll_wait_old | eventfd | eventfd2 | execve | execveat | exit | exit_group | faccessat | faccessat2
  | fadvise64 | fadvise64_64 | fallocate | fanotify_init | fanotify_mark | fchdir | fchmod | fchmodat | fchmodat2
  | fchown | fchown32 | fchownat | fcntl | fcntl64 | fdatasync | fgetxattr | finit_module | flistxattr | flock
  | fork | fremovexattr | fsconfig | fsetxattr | fsmount | fsopen | fspick | fstat | fstat64 | fstatat64 | fstatfs
  | fstatfs64 | fsync | ftime | ftruncate | ftruncate64 | futex | futex_requeue | futex_time64 | futex_wait
  | futex_waitv | futex_wake | futimesat | get_kernel_syms | get_mempolicy | get_robust_list | get_thread_area
  | getcpu | getcwd | getdents | getdents64 | getegid | getegid32 | geteuid | geteuid32 | getgid | getgid32
  | getgroups | getgroups32 | getitimer | getpeername | getpgid | getpgrp | getpid | getpmsg | getppid
  | getpriority | getrandom | getresgid | getresgid32 | getresuid | getresuid32 | getrlimit | getrusage | getsid
  | getsockname | getsockopt | gettid | gettimeofday | getuid | getuid32 | getxattr | getxattrat | gtty | idle
  | init_module | inotify_add_watch | inotify_init | inotify_init1 | inotify_rm_watch | io_cancel | io_destroy
  | io_getevents | io_pgetevents | io_pgetevents_time64 | io_setup | io_submit | io_uring_enter | io_uring_register
  | io_uring_setup | ioctl | ioperm | iopl | ioprio_get | ioprio_set | ipc | kcmp | kexec_file_load | kexec_load
  | keyctl | kill | landlock_add_rule | landlock_create_ruleset | landlock_restrict_self | lchown | lchown32
  | lgetxattr | link | linkat | listen | listmount | listxattr | listxattrat | llistxattr | lock | lookup_dcookie
  | lremovexattr | lseek | lsetxattr | lsm_get_self_attr | lsm_list_modules | lsm_set_self_attr | lstat | lstat64
  | madvise | map_shadow_stack | mbind | membarrier | memfd_create | memfd_secret | migrate_pages | mincore | mkdir
  | mkdirat | mknod | mknodat | mlock | mlock2 | mlockall | mmap | mmap2 | modify_ldt | mount | mount_setattr
  | move_mount | move_pages | mprotect | mpx | mq_getsetattr | mq_notify | mq_open | mq_timedreceive
  | mq_timedreceive_time64 | mq_timedsend | mq_timedsend_time64 | mq_unlink | mremap | mseal | msgctl | msgget
  | msgrcv | msgsnd | msync | munlock | munlockall | munmap | name_to_handle_at | nanosleep | newfstatat
  | nfsservctl | nice | oldfstat | oldlstat | oldolduname | oldstat | olduname | «open» | open_by_handle_at
  | open_tree | openat | openat2 | pause | perf_event_open | personality | pidfd_getfd | pidfd_open
  | pidfd_send_signal | pipe | pipe2 | pivot_root | pkey_alloc | pkey_free | pkey_mprotect | poll | ppoll
  | ppoll_time64 | prctl | pread64 | preadv | preadv2 | prlimit64 | process_madvise | process_mrelease
  | process_vm_readv | process_vm_writev | prof | profil | pselect6 | pselect6_time64 | ptrace | putpmsg | pwrite64
  | pwritev | pwritev2 | query_module | quotactl | quotactl_fd | read | readahead | readdir | readlink | readlinkat
  | readv | reboot | recvfrom | recvmmsg | recvmmsg_time64 | recvmsg | remap_file_pages | removexattr
  | removexattrat | rename | renameat | renameat2 | request_key | restart_syscall | rmdir | rseq | rt_sigaction
  | rt_sigpending | rt_sigprocmask | rt_sigqueueinfo | rt_sigreturn | rt_sigsuspend | rt_sigtimedwait
  | rt_sigtimedwait_time64 | rt_tgsigqueueinfo | sched_get_priority_max | sched_get_priority_min
  | sched_getaffinity | sched_getattr | sched_getparam | sched_getscheduler | sched_rr_get_interval
  | sched_rr_get_interval_time64 | sched_setaffinity | sched_setattr | sched_setparam | sched_setscheduler
  | sched_yield | seccomp | security | select | semctl | semget | semop | semtimedop | semtimedop_time64 | sendfile
  | sendfile64 | sendmmsg | sendmsg | sendto | set_mempolicy | set_mempolicy_home_node | set_robust_list
  | set_thread_area | set_tid_address | setdomainname | setfsgid | setfsgid32 | setfsuid | setfsuid32 | setgid
  | setgid32 | setgroups | setgroups32 | sethostname | setitimer | setns | setpgid | setpriority | setregid
  | setregid32 | setresgid | setresgid32 | setresuid | setresuid32 | setreuid | setreuid32 | setrlimit | setsid
  | setsockopt | settimeofday | setuid | setuid32 | setxattr | setxattrat | sgetmask | shmat | shmctl | shmdt
  | shmget | shutdown | sigaction | sigaltstack | signal | signalfd | signalfd4 | sigpending | sigprocmask
  | sigreturn | sigsuspend | socket | socketcall | socketpair | splice | ssetmask | stat | stat64 | statfs
  | statfs64 | statmount | statx | stime | stty | swapoff | swapon | symlink | symlinkat | sync | sync_file_range
  | syncfs | sysfs | sysinfo | syslog | tee | tgkill | time | timer_create | timer_delete | timer_getoverrun
  | timer_gettime | timer_gettime64 | timer_settime | timer_settime64 | timerfd_create | timerfd_gettime
  | timerfd_gettime64 | timerfd_settime | timerfd_settime64 | times | tkill | truncate | truncate64 | tuxcall
  | ugetrlimit | ulimit | umask | umount | umount2 | uname | unlink | unlinkat | unshare | uretprobe | uselib
  | userfaultfd | ustat | utime | utimensat | utimensat_time64 | utimes | vfork | vhangup | vm86 | vm86old
  | vmsplice | vserver | wait4 | waitid | waitpid | write | writev
  deriving DecidableEq

/-- one row of a table, without the number of arguments: flags `TF`, `TD`, `TN`
(src/sysent_shorthand_defs.h) and the entry kind -/
structure Row where
  call : Call
  file : Bool
  desc : Bool
  net : Bool
  sen : Sen

/-- src/linux/x86_64/syscallent.h with src/linux/generic/syscallent-common.h -/
def x86_64 : List Row := [
  ⟨.read, false, true, false, .read⟩,
  ⟨.write, false, true, false, .write⟩,
  ⟨.«open», true, true, false, .«open»⟩,
  ⟨.close, false, true, false, .close⟩,
  ⟨.stat, true, false, false, .stat⟩,
  ⟨.fstat, false, true, false, .fstat⟩,
  ⟨.lstat, true, false, false, .lstat⟩,
  ⟨.poll, false, true, false, .poll_time64⟩,
  ⟨.lseek, false, true, false, .lseek⟩,
  ⟨.mmap, false, true, false, .mmap⟩,
  ⟨.mprotect, false, false, false, .mprotect⟩,
  ⟨.munmap, false, false, false, .munmap⟩,
  ⟨.brk, false, false, false, .brk⟩,
  ⟨.rt_sigaction, false, false, false, .rt_sigaction⟩,
  ⟨.rt_sigprocmask, false, false, false, .rt_sigprocmask⟩,
  ⟨.rt_sigreturn, false, false, false, .rt_sigreturn⟩,
  ⟨.ioctl, false, true, false, .ioctl⟩,
  ⟨.pread64, false, true, false, .pread⟩,
  ⟨.pwrite64, false, true, false, .pwrite⟩,
  ⟨.readv, false, true, false, .readv⟩,
  ⟨.writev, false, true, false, .writev⟩,
  ⟨.access, true, false, false, .access⟩,
  ⟨.pipe, false, true, false, .pipe⟩,
  ⟨.select, false, true, false, .select⟩,
  ⟨.sched_yield, false, false, false, .sched_yield⟩,
  ⟨.mremap, false, false, false, .mremap⟩,
  ⟨.msync, false, false, false, .msync⟩,
  ⟨.mincore, false, false, false, .mincore⟩,
  ⟨.madvise, false, false, false, .madvise⟩,
  ⟨.shmget, false, false, false, .shmget⟩,
  ⟨.shmat, false, false, false, .shmat⟩,
  ⟨.shmctl, false, false, false, .shmctl⟩,
  ⟨.dup, false, true, false, .dup⟩,
  ⟨.dup2, false, true, false, .dup2⟩,
  ⟨.pause, false, false, false, .pause⟩,
  ⟨.nanosleep, false, false, false, .nanosleep_time64⟩,
  ⟨.getitimer, false, false, false, .getitimer⟩,
  ⟨.alarm, false, false, false, .alarm⟩,
  ⟨.setitimer, false, false, false, .setitimer⟩,
  ⟨.getpid, false, false, false, .getpid⟩,
  ⟨.sendfile, false, true, true, .sendfile64⟩,
  ⟨.socket, false, false, true, .socket⟩,
  ⟨.connect, false, false, true, .connect⟩,
  ⟨.accept, false, false, true, .accept⟩,
  ⟨.sendto, false, false, true, .sendto⟩,
  ⟨.recvfrom, false, false, true, .recvfrom⟩,
  ⟨.sendmsg, false, false, true, .sendmsg⟩,
  ⟨.recvmsg, false, false, true, .recvmsg⟩,
  ⟨.shutdown, false, false, true, .shutdown⟩,
  ⟨.bind, false, false, true, .bind⟩,
  ⟨.listen, false, false, true, .listen⟩,
  ⟨.getsockname, false, false, true, .getsockname⟩,
  ⟨.getpeername, false, false, true, .getpeername⟩,
  ⟨.socketpair, false, false, true, .socketpair⟩,
  ⟨.setsockopt, false, false, true, .setsockopt⟩,
  ⟨.getsockopt, false, false, true, .getsockopt⟩,
  ⟨.clone, false, false, false, .clone⟩,
  ⟨.fork, false, false, false, .fork⟩,
  ⟨.vfork, false, false, false, .vfork⟩,
  ⟨.execve, true, false, false, .execve⟩,
  ⟨.exit, false, false, false, .exit⟩,
  ⟨.wait4, false, false, false, .wait4⟩,
  ⟨.kill, false, false, false, .kill⟩,
  ⟨.uname, false, false, false, .uname⟩,
  ⟨.semget, false, false, false, .semget⟩,
  ⟨.semop, false, false, false, .semop⟩,
  ⟨.semctl, false, false, false, .semctl⟩,
  ⟨.shmdt, false, false, false, .shmdt⟩,
  ⟨.msgget, false, false, false, .msgget⟩,
  ⟨.msgsnd, false, false, false, .msgsnd⟩,
  ⟨.msgrcv, false, false, false, .msgrcv⟩,
  ⟨.msgctl, false, false, false, .msgctl⟩,
  ⟨.fcntl, false, true, false, .fcntl⟩,
  ⟨.flock, false, true, false, .flock⟩,
  ⟨.fsync, false, true, false, .fsync⟩,
  ⟨.fdatasync, false, true, false, .fdatasync⟩,
  ⟨.truncate, true, false, false, .truncate⟩,
  ⟨.ftruncate, false, true, false, .ftruncate⟩,
  ⟨.getdents, false, true, false, .getdents⟩,
  ⟨.getcwd, true, false, false, .getcwd⟩,
  ⟨.chdir, true, false, false, .chdir⟩,
  ⟨.fchdir, false, true, false, .fchdir⟩,
  ⟨.rename, true, false, false, .rename⟩,
  ⟨.mkdir, true, false, false, .mkdir⟩,
  ⟨.rmdir, true, false, false, .rmdir⟩,
  ⟨.creat, true, true, false, .creat⟩,
  ⟨.link, true, false, false, .link⟩,
  ⟨.unlink, true, false, false, .unlink⟩,
  ⟨.symlink, true, false, false, .symlink⟩,
  ⟨.readlink, true, false, false, .readlink⟩,
  ⟨.chmod, true, false, false, .chmod⟩,
  ⟨.fchmod, false, true, false, .fchmod⟩,
  ⟨.chown, true, false, false, .chown⟩,
  ⟨.fchown, false, true, false, .fchown⟩,
  ⟨.lchown, true, false, false, .chown⟩,
  ⟨.umask, false, false, false, .umask⟩,
  ⟨.gettimeofday, false, false, false, .gettimeofday⟩,
  ⟨.getrlimit, false, false, false, .getrlimit⟩,
  ⟨.getrusage, false, false, false, .getrusage⟩,
  ⟨.sysinfo, false, false, false, .sysinfo⟩,
  ⟨.times, false, false, false, .times⟩,
  ⟨.ptrace, false, false, false, .ptrace⟩,
  ⟨.getuid, false, false, false, .getuid⟩,
  ⟨.syslog, false, false, false, .syslog⟩,
  ⟨.getgid, false, false, false, .getgid⟩,
  ⟨.setuid, false, false, false, .setuid⟩,
  ⟨.setgid, false, false, false, .setgid⟩,
  ⟨.geteuid, false, false, false, .geteuid⟩,
  ⟨.getegid, false, false, false, .getegid⟩,
  ⟨.setpgid, false, false, false, .setpgid⟩,
  ⟨.getppid, false, false, false, .getppid⟩,
  ⟨.getpgrp, false, false, false, .getpgrp⟩,
  ⟨.setsid, false, false, false, .setsid⟩,
  ⟨.setreuid, false, false, false, .setreuid⟩,
  ⟨.setregid, false, false, false, .setregid⟩,
  ⟨.getgroups, false, false, false, .getgroups⟩,
  ⟨.setgroups, false, false, false, .setgroups⟩,
  ⟨.setresuid, false, false, false, .setresuid⟩,
  ⟨.getresuid, false, false, false, .getresuid⟩,
  ⟨.setresgid, false, false, false, .setresgid⟩,
  ⟨.getresgid, false, false, false, .getresgid⟩,
  ⟨.getpgid, false, false, false, .getpgid⟩,
  ⟨.setfsuid, false, false, false, .setfsuid⟩,
  ⟨.setfsgid, false, false, false, .setfsgid⟩,
  ⟨.getsid, false, false, false, .getsid⟩,
  ⟨.capget, false, false, false, .capget⟩,
  ⟨.capset, false, false, false, .capset⟩,
  ⟨.rt_sigpending, false, false, false, .rt_sigpending⟩,
  ⟨.rt_sigtimedwait, false, false, false, .rt_sigtimedwait_time64⟩,
  ⟨.rt_sigqueueinfo, false, false, false, .rt_sigqueueinfo⟩,
  ⟨.rt_sigsuspend, false, false, false, .rt_sigsuspend⟩,
  ⟨.sigaltstack, false, false, false, .sigaltstack⟩,
  ⟨.utime, true, false, false, .utime⟩,
  ⟨.mknod, true, false, false, .mknod⟩,
  ⟨.uselib, true, false, false, .uselib⟩,
  ⟨.personality, false, false, false, .personality⟩,
  ⟨.ustat, false, false, false, .ustat⟩,
  ⟨.statfs, true, false, false, .statfs⟩,
  ⟨.fstatfs, false, true, false, .fstatfs⟩,
  ⟨.sysfs, false, false, false, .sysfs⟩,
  ⟨.getpriority, false, false, false, .getpriority⟩,
  ⟨.setpriority, false, false, false, .setpriority⟩,
  ⟨.sched_setparam, false, false, false, .sched_setparam⟩,
  ⟨.sched_getparam, false, false, false, .sched_getparam⟩,
  ⟨.sched_setscheduler, false, false, false, .sched_setscheduler⟩,
  ⟨.sched_getscheduler, false, false, false, .sched_getscheduler⟩,
  ⟨.sched_get_priority_max, false, false, false, .sched_get_priority_max⟩,
  ⟨.sched_get_priority_min, false, false, false, .sched_get_priority_min⟩,
  ⟨.sched_rr_get_interval, false, false, false, .sched_rr_get_interval_time64⟩,
  ⟨.mlock, false, false, false, .mlock⟩,
  ⟨.munlock, false, false, false, .munlock⟩,
  ⟨.mlockall, false, false, false, .mlockall⟩,
  ⟨.munlockall, false, false, false, .munlockall⟩,
  ⟨.vhangup, false, false, false, .vhangup⟩,
  ⟨.modify_ldt, false, false, false, .modify_ldt⟩,
  ⟨.pivot_root, true, false, false, .pivotroot⟩,
  ⟨.«_sysctl», false, false, false, .sysctl⟩,
  ⟨.prctl, false, false, false, .prctl⟩,
  ⟨.arch_prctl, false, false, false, .arch_prctl⟩,
  ⟨.adjtimex, false, false, false, .adjtimex64⟩,
  ⟨.setrlimit, false, false, false, .setrlimit⟩,
  ⟨.chroot, true, false, false, .chroot⟩,
  ⟨.sync, false, false, false, .sync⟩,
  ⟨.acct, true, false, false, .acct⟩,
  ⟨.settimeofday, false, false, false, .settimeofday⟩,
  ⟨.mount, true, false, false, .mount⟩,
  ⟨.umount2, true, false, false, .umount2⟩,
  ⟨.swapon, true, false, false, .swapon⟩,
  ⟨.swapoff, true, false, false, .swapoff⟩,
  ⟨.reboot, false, false, false, .reboot⟩,
  ⟨.sethostname, false, false, false, .sethostname⟩,
  ⟨.setdomainname, false, false, false, .setdomainname⟩,
  ⟨.iopl, false, false, false, .iopl⟩,
  ⟨.ioperm, false, false, false, .ioperm⟩,
  ⟨.create_module, false, false, false, .create_module⟩,
  ⟨.init_module, false, false, false, .init_module⟩,
  ⟨.delete_module, false, false, false, .delete_module⟩,
  ⟨.get_kernel_syms, false, false, false, .get_kernel_syms⟩,
  ⟨.query_module, false, false, false, .query_module⟩,
  ⟨.quotactl, true, false, false, .quotactl⟩,
  ⟨.nfsservctl, false, false, false, .nfsservctl⟩,
  ⟨.getpmsg, false, false, true, .getpmsg⟩,
  ⟨.putpmsg, false, false, true, .putpmsg⟩,
  ⟨.afs_syscall, false, false, false, .afs_syscall⟩,
  ⟨.tuxcall, false, false, false, .tuxcall⟩,
  ⟨.security, false, false, false, .security⟩,
  ⟨.gettid, false, false, false, .gettid⟩,
  ⟨.readahead, false, true, false, .readahead⟩,
  ⟨.setxattr, true, false, false, .setxattr⟩,
  ⟨.lsetxattr, true, false, false, .setxattr⟩,
  ⟨.fsetxattr, false, true, false, .fsetxattr⟩,
  ⟨.getxattr, true, false, false, .getxattr⟩,
  ⟨.lgetxattr, true, false, false, .getxattr⟩,
  ⟨.fgetxattr, false, true, false, .fgetxattr⟩,
  ⟨.listxattr, true, false, false, .listxattr⟩,
  ⟨.llistxattr, true, false, false, .listxattr⟩,
  ⟨.flistxattr, false, true, false, .flistxattr⟩,
  ⟨.removexattr, true, false, false, .removexattr⟩,
  ⟨.lremovexattr, true, false, false, .removexattr⟩,
  ⟨.fremovexattr, false, true, false, .fremovexattr⟩,
  ⟨.tkill, false, false, false, .tkill⟩,
  ⟨.time, false, false, false, .time⟩,
  ⟨.futex, false, false, false, .futex_time64⟩,
  ⟨.sched_setaffinity, false, false, false, .sched_setaffinity⟩,
  ⟨.sched_getaffinity, false, false, false, .sched_getaffinity⟩,
  ⟨.set_thread_area, false, false, false, .set_thread_area⟩,
  ⟨.io_setup, false, false, false, .io_setup⟩,
  ⟨.io_destroy, false, false, false, .io_destroy⟩,
  ⟨.io_getevents, false, false, false, .io_getevents_time64⟩,
  ⟨.io_submit, false, false, false, .io_submit⟩,
  ⟨.io_cancel, false, false, false, .io_cancel⟩,
  ⟨.get_thread_area, false, false, false, .get_thread_area⟩,
  ⟨.lookup_dcookie, false, false, false, .lookup_dcookie⟩,
  ⟨.epoll_create, false, true, false, .epoll_create⟩,
  ⟨.epoll_ctl_old, false, false, false, .printargs⟩,
  ⟨.epoll_wait_old, false, false, false, .printargs⟩,
  ⟨.remap_file_pages, false, false, false, .remap_file_pages⟩,
  ⟨.getdents64, false, true, false, .getdents64⟩,
  ⟨.set_tid_address, false, false, false, .set_tid_address⟩,
  ⟨.restart_syscall, false, false, false, .restart_syscall⟩,
  ⟨.semtimedop, false, false, false, .semtimedop_time64⟩,
  ⟨.fadvise64, false, true, false, .fadvise64⟩,
  ⟨.timer_create, false, false, false, .timer_create⟩,
  ⟨.timer_settime, false, false, false, .timer_settime64⟩,
  ⟨.timer_gettime, false, false, false, .timer_gettime64⟩,
  ⟨.timer_getoverrun, false, false, false, .timer_getoverrun⟩,
  ⟨.timer_delete, false, false, false, .timer_delete⟩,
  ⟨.clock_settime, false, false, false, .clock_settime64⟩,
  ⟨.clock_gettime, false, false, false, .clock_gettime64⟩,
  ⟨.clock_getres, false, false, false, .clock_getres_time64⟩,
  ⟨.clock_nanosleep, false, false, false, .clock_nanosleep_time64⟩,
  ⟨.exit_group, false, false, false, .exit⟩,
  ⟨.epoll_wait, false, true, false, .epoll_wait⟩,
  ⟨.epoll_ctl, false, true, false, .epoll_ctl⟩,
  ⟨.tgkill, false, false, false, .tgkill⟩,
  ⟨.utimes, true, false, false, .utimes⟩,
  ⟨.vserver, false, false, false, .vserver⟩,
  ⟨.mbind, false, false, false, .mbind⟩,
  ⟨.set_mempolicy, false, false, false, .set_mempolicy⟩,
  ⟨.get_mempolicy, false, false, false, .get_mempolicy⟩,
  ⟨.mq_open, false, true, false, .mq_open⟩,
  ⟨.mq_unlink, false, false, false, .mq_unlink⟩,
  ⟨.mq_timedsend, false, true, false, .mq_timedsend_time64⟩,
  ⟨.mq_timedreceive, false, true, false, .mq_timedreceive_time64⟩,
  ⟨.mq_notify, false, true, false, .mq_notify⟩,
  ⟨.mq_getsetattr, false, true, false, .mq_getsetattr⟩,
  ⟨.kexec_load, false, false, false, .kexec_load⟩,
  ⟨.waitid, false, false, false, .waitid⟩,
  ⟨.add_key, false, false, false, .add_key⟩,
  ⟨.request_key, false, false, false, .request_key⟩,
  ⟨.keyctl, false, false, false, .keyctl⟩,
  ⟨.ioprio_set, false, false, false, .ioprio_set⟩,
  ⟨.ioprio_get, false, false, false, .ioprio_get⟩,
  ⟨.inotify_init, false, true, false, .inotify_init⟩,
  ⟨.inotify_add_watch, true, true, false, .inotify_add_watch⟩,
  ⟨.inotify_rm_watch, false, true, false, .inotify_rm_watch⟩,
  ⟨.migrate_pages, false, false, false, .migrate_pages⟩,
  ⟨.openat, true, true, false, .openat⟩,
  ⟨.mkdirat, true, true, false, .mkdirat⟩,
  ⟨.mknodat, true, true, false, .mknodat⟩,
  ⟨.fchownat, true, true, false, .fchownat⟩,
  ⟨.futimesat, true, true, false, .futimesat⟩,
  ⟨.newfstatat, true, true, false, .newfstatat⟩,
  ⟨.unlinkat, true, true, false, .unlinkat⟩,
  ⟨.renameat, true, true, false, .renameat⟩,
  ⟨.linkat, true, true, false, .linkat⟩,
  ⟨.symlinkat, true, true, false, .symlinkat⟩,
  ⟨.readlinkat, true, true, false, .readlinkat⟩,
  ⟨.fchmodat, true, true, false, .fchmodat⟩,
  ⟨.faccessat, true, true, false, .faccessat⟩,
  ⟨.pselect6, false, true, false, .pselect6_time64⟩,
  ⟨.ppoll, false, true, false, .ppoll_time64⟩,
  ⟨.unshare, false, false, false, .unshare⟩,
  ⟨.set_robust_list, false, false, false, .set_robust_list⟩,
  ⟨.get_robust_list, false, false, false, .get_robust_list⟩,
  ⟨.splice, false, true, false, .splice⟩,
  ⟨.tee, false, true, false, .tee⟩,
  ⟨.sync_file_range, false, true, false, .sync_file_range⟩,
  ⟨.vmsplice, false, true, false, .vmsplice⟩,
  ⟨.move_pages, false, false, false, .move_pages⟩,
  ⟨.utimensat, true, true, false, .utimensat_time64⟩,
  ⟨.epoll_pwait, false, true, false, .epoll_pwait⟩,
  ⟨.signalfd, false, true, false, .signalfd⟩,
  ⟨.timerfd_create, false, true, false, .timerfd_create⟩,
  ⟨.eventfd, false, true, false, .eventfd⟩,
  ⟨.fallocate, false, true, false, .fallocate⟩,
  ⟨.timerfd_settime, false, true, false, .timerfd_settime64⟩,
  ⟨.timerfd_gettime, false, true, false, .timerfd_gettime64⟩,
  ⟨.accept4, false, false, true, .accept4⟩,
  ⟨.signalfd4, false, true, false, .signalfd4⟩,
  ⟨.eventfd2, false, true, false, .eventfd2⟩,
  ⟨.epoll_create1, false, true, false, .epoll_create1⟩,
  ⟨.dup3, false, true, false, .dup3⟩,
  ⟨.pipe2, false, true, false, .pipe2⟩,
  ⟨.inotify_init1, false, true, false, .inotify_init1⟩,
  ⟨.preadv, false, true, false, .preadv⟩,
  ⟨.pwritev, false, true, false, .pwritev⟩,
  ⟨.rt_tgsigqueueinfo, false, false, false, .rt_tgsigqueueinfo⟩,
  ⟨.perf_event_open, false, true, false, .perf_event_open⟩,
  ⟨.recvmmsg, false, false, true, .recvmmsg_time64⟩,
  ⟨.fanotify_init, false, true, false, .fanotify_init⟩,
  ⟨.fanotify_mark, true, true, false, .fanotify_mark⟩,
  ⟨.prlimit64, false, false, false, .prlimit64⟩,
  ⟨.name_to_handle_at, true, true, false, .name_to_handle_at⟩,
  ⟨.open_by_handle_at, false, true, false, .open_by_handle_at⟩,
  ⟨.clock_adjtime, false, false, false, .clock_adjtime64⟩,
  ⟨.syncfs, false, true, false, .syncfs⟩,
  ⟨.sendmmsg, false, false, true, .sendmmsg⟩,
  ⟨.setns, false, true, false, .setns⟩,
  ⟨.getcpu, false, false, false, .getcpu⟩,
  ⟨.process_vm_readv, false, false, false, .process_vm_readv⟩,
  ⟨.process_vm_writev, false, false, false, .process_vm_writev⟩,
  ⟨.kcmp, false, false, false, .kcmp⟩,
  ⟨.finit_module, false, true, false, .finit_module⟩,
  ⟨.sched_setattr, false, false, false, .sched_setattr⟩,
  ⟨.sched_getattr, false, false, false, .sched_getattr⟩,
  ⟨.renameat2, true, true, false, .renameat2⟩,
  ⟨.seccomp, false, false, false, .seccomp⟩,
  ⟨.getrandom, false, false, false, .getrandom⟩,
  ⟨.memfd_create, false, true, false, .memfd_create⟩,
  ⟨.kexec_file_load, false, true, false, .kexec_file_load⟩,
  ⟨.bpf, false, true, false, .bpf⟩,
  ⟨.execveat, true, true, false, .execveat⟩,
  ⟨.userfaultfd, false, true, false, .userfaultfd⟩,
  ⟨.membarrier, false, false, false, .membarrier⟩,
  ⟨.mlock2, false, false, false, .mlock2⟩,
  ⟨.copy_file_range, false, true, false, .copy_file_range⟩,
  ⟨.preadv2, false, true, false, .preadv2⟩,
  ⟨.pwritev2, false, true, false, .pwritev2⟩,
  ⟨.pkey_mprotect, false, false, false, .pkey_mprotect⟩,
  ⟨.pkey_alloc, false, false, false, .pkey_alloc⟩,
  ⟨.pkey_free, false, false, false, .pkey_free⟩,
  ⟨.statx, true, true, false, .statx⟩,
  ⟨.io_pgetevents, false, false, false, .io_pgetevents_time64⟩,
  ⟨.rseq, false, false, false, .rseq⟩,
  ⟨.uretprobe, false, false, false, .uretprobe⟩,
  ⟨.pidfd_send_signal, false, true, false, .pidfd_send_signal⟩,
  ⟨.io_uring_setup, false, true, false, .io_uring_setup⟩,
  ⟨.io_uring_enter, false, true, false, .io_uring_enter⟩,
  ⟨.io_uring_register, false, true, false, .io_uring_register⟩,
  ⟨.open_tree, true, true, false, .open_tree⟩,
  ⟨.move_mount, true, true, false, .move_mount⟩,
  ⟨.fsopen, false, true, false, .fsopen⟩,
  ⟨.fsconfig, true, true, false, .fsconfig⟩,
  ⟨.fsmount, false, true, false, .fsmount⟩,
  ⟨.fspick, true, true, false, .fspick⟩,
  ⟨.pidfd_open, false, true, false, .pidfd_open⟩,
  ⟨.clone3, false, false, false, .clone3⟩,
  ⟨.close_range, false, false, false, .close_range⟩,
  ⟨.openat2, true, true, false, .openat2⟩,
  ⟨.pidfd_getfd, false, true, false, .pidfd_getfd⟩,
  ⟨.faccessat2, true, true, false, .faccessat2⟩,
  ⟨.process_madvise, false, true, false, .process_madvise⟩,
  ⟨.epoll_pwait2, false, true, false, .epoll_pwait2⟩,
  ⟨.mount_setattr, true, true, false, .mount_setattr⟩,
  ⟨.quotactl_fd, false, true, false, .quotactl_fd⟩,
  ⟨.landlock_create_ruleset, false, true, false, .landlock_create_ruleset⟩,
  ⟨.landlock_add_rule, false, true, false, .landlock_add_rule⟩,
  ⟨.landlock_restrict_self, false, true, false, .landlock_restrict_self⟩,
  ⟨.memfd_secret, false, true, false, .memfd_secret⟩,
  ⟨.process_mrelease, false, true, false, .process_mrelease⟩,
  ⟨.futex_waitv, false, false, false, .futex_waitv⟩,
  ⟨.set_mempolicy_home_node, false, false, false, .set_mempolicy_home_node⟩,
  ⟨.cachestat, false, true, false, .cachestat⟩,
  ⟨.fchmodat2, true, true, false, .fchmodat2⟩,
  ⟨.map_shadow_stack, false, false, false, .map_shadow_stack⟩,
  ⟨.futex_wake, false, false, false, .futex_wake⟩,
  ⟨.futex_wait, false, false, false, .futex_wait⟩,
  ⟨.futex_requeue, false, false, false, .futex_requeue⟩,
  ⟨.statmount, false, false, false, .statmount⟩,
  ⟨.listmount, false, false, false, .listmount⟩,
  ⟨.lsm_get_self_attr, false, false, false, .lsm_get_self_attr⟩,
  ⟨.lsm_set_self_attr, false, false, false, .lsm_set_self_attr⟩,
  ⟨.lsm_list_modules, false, false, false, .lsm_list_modules⟩,
  ⟨.mseal, false, false, false, .mseal⟩,
  ⟨.setxattrat, true, true, false, .setxattrat⟩,
  ⟨.getxattrat, true, true, false, .getxattrat⟩,
  ⟨.listxattrat, true, true, false, .listxattrat⟩,
  ⟨.removexattrat, true, true, false, .removexattrat⟩]

/-- src/linux/i386/syscallent.h with src/linux/32/syscallent-common-32.h, src/linux/generic/syscallent-common.h -/
def i386 : List Row := [
  ⟨.restart_syscall, false, false, false, .restart_syscall⟩,
  ⟨.exit, false, false, false, .exit⟩,
  ⟨.fork, false, false, false, .fork⟩,
  ⟨.read, false, true, false, .read⟩,
  ⟨.write, false, true, false, .write⟩,
  ⟨.«open», true, true, false, .«open»⟩,
  ⟨.close, false, true, false, .close⟩,
  ⟨.waitpid, false, false, false, .waitpid⟩,
  ⟨.creat, true, true, false, .creat⟩,
  ⟨.link, true, false, false, .link⟩,
  ⟨.unlink, true, false, false, .unlink⟩,
  ⟨.execve, true, false, false, .execve⟩,
  ⟨.chdir, true, false, false, .chdir⟩,
  ⟨.time, false, false, false, .time⟩,
  ⟨.mknod, true, false, false, .mknod⟩,
  ⟨.chmod, true, false, false, .chmod⟩,
  ⟨.lchown, true, false, false, .chown16⟩,
  ⟨.break, false, false, false, .break⟩,
  ⟨.oldstat, true, false, false, .oldstat⟩,
  ⟨.lseek, false, true, false, .lseek⟩,
  ⟨.getpid, false, false, false, .getpid⟩,
  ⟨.mount, true, false, false, .mount⟩,
  ⟨.umount, true, false, false, .umount⟩,
  ⟨.setuid, false, false, false, .setuid16⟩,
  ⟨.getuid, false, false, false, .getuid16⟩,
  ⟨.stime, false, false, false, .stime⟩,
  ⟨.ptrace, false, false, false, .ptrace⟩,
  ⟨.alarm, false, false, false, .alarm⟩,
  ⟨.oldfstat, false, true, false, .oldfstat⟩,
  ⟨.pause, false, false, false, .pause⟩,
  ⟨.utime, true, false, false, .utime⟩,
  ⟨.stty, false, false, false, .stty⟩,
  ⟨.gtty, false, false, false, .gtty⟩,
  ⟨.access, true, false, false, .access⟩,
  ⟨.nice, false, false, false, .nice⟩,
  ⟨.ftime, false, false, false, .ftime⟩,
  ⟨.sync, false, false, false, .sync⟩,
  ⟨.kill, false, false, false, .kill⟩,
  ⟨.rename, true, false, false, .rename⟩,
  ⟨.mkdir, true, false, false, .mkdir⟩,
  ⟨.rmdir, true, false, false, .rmdir⟩,
  ⟨.dup, false, true, false, .dup⟩,
  ⟨.pipe, false, true, false, .pipe⟩,
  ⟨.times, false, false, false, .times⟩,
  ⟨.prof, false, false, false, .prof⟩,
  ⟨.brk, false, false, false, .brk⟩,
  ⟨.setgid, false, false, false, .setgid16⟩,
  ⟨.getgid, false, false, false, .getgid16⟩,
  ⟨.signal, false, false, false, .signal⟩,
  ⟨.geteuid, false, false, false, .geteuid16⟩,
  ⟨.getegid, false, false, false, .getegid16⟩,
  ⟨.acct, true, false, false, .acct⟩,
  ⟨.umount2, true, false, false, .umount2⟩,
  ⟨.lock, false, false, false, .lock⟩,
  ⟨.ioctl, false, true, false, .ioctl⟩,
  ⟨.fcntl, false, true, false, .fcntl⟩,
  ⟨.mpx, false, false, false, .mpx⟩,
  ⟨.setpgid, false, false, false, .setpgid⟩,
  ⟨.ulimit, false, false, false, .ulimit⟩,
  ⟨.oldolduname, false, false, false, .oldolduname⟩,
  ⟨.umask, false, false, false, .umask⟩,
  ⟨.chroot, true, false, false, .chroot⟩,
  ⟨.ustat, false, false, false, .ustat⟩,
  ⟨.dup2, false, true, false, .dup2⟩,
  ⟨.getppid, false, false, false, .getppid⟩,
  ⟨.getpgrp, false, false, false, .getpgrp⟩,
  ⟨.setsid, false, false, false, .setsid⟩,
  ⟨.sigaction, false, false, false, .sigaction⟩,
  ⟨.sgetmask, false, false, false, .sgetmask⟩,
  ⟨.ssetmask, false, false, false, .ssetmask⟩,
  ⟨.setreuid, false, false, false, .setreuid16⟩,
  ⟨.setregid, false, false, false, .setregid16⟩,
  ⟨.sigsuspend, false, false, false, .sigsuspend⟩,
  ⟨.sigpending, false, false, false, .sigpending⟩,
  ⟨.sethostname, false, false, false, .sethostname⟩,
  ⟨.setrlimit, false, false, false, .setrlimit⟩,
  ⟨.getrlimit, false, false, false, .getrlimit⟩,
  ⟨.getrusage, false, false, false, .getrusage⟩,
  ⟨.gettimeofday, false, false, false, .gettimeofday⟩,
  ⟨.settimeofday, false, false, false, .settimeofday⟩,
  ⟨.getgroups, false, false, false, .getgroups16⟩,
  ⟨.setgroups, false, false, false, .setgroups16⟩,
  ⟨.select, false, true, false, .oldselect⟩,
  ⟨.symlink, true, false, false, .symlink⟩,
  ⟨.oldlstat, true, false, false, .oldlstat⟩,
  ⟨.readlink, true, false, false, .readlink⟩,
  ⟨.uselib, true, false, false, .uselib⟩,
  ⟨.swapon, true, false, false, .swapon⟩,
  ⟨.reboot, false, false, false, .reboot⟩,
  ⟨.readdir, false, true, false, .readdir⟩,
  ⟨.mmap, false, true, false, .old_mmap⟩,
  ⟨.munmap, false, false, false, .munmap⟩,
  ⟨.truncate, true, false, false, .truncate⟩,
  ⟨.ftruncate, false, true, false, .ftruncate⟩,
  ⟨.fchmod, false, true, false, .fchmod⟩,
  ⟨.fchown, false, true, false, .fchown16⟩,
  ⟨.getpriority, false, false, false, .getpriority⟩,
  ⟨.setpriority, false, false, false, .setpriority⟩,
  ⟨.profil, false, false, false, .profil⟩,
  ⟨.statfs, true, false, false, .statfs⟩,
  ⟨.fstatfs, false, true, false, .fstatfs⟩,
  ⟨.ioperm, false, false, false, .ioperm⟩,
  ⟨.socketcall, false, true, false, .socketcall⟩,
  ⟨.syslog, false, false, false, .syslog⟩,
  ⟨.setitimer, false, false, false, .setitimer⟩,
  ⟨.getitimer, false, false, false, .getitimer⟩,
  ⟨.stat, true, false, false, .stat⟩,
  ⟨.lstat, true, false, false, .lstat⟩,
  ⟨.fstat, false, true, false, .fstat⟩,
  ⟨.olduname, false, false, false, .olduname⟩,
  ⟨.iopl, false, false, false, .iopl⟩,
  ⟨.vhangup, false, false, false, .vhangup⟩,
  ⟨.idle, false, false, false, .idle⟩,
  ⟨.vm86old, false, false, false, .vm86old⟩,
  ⟨.wait4, false, false, false, .wait4⟩,
  ⟨.swapoff, true, false, false, .swapoff⟩,
  ⟨.sysinfo, false, false, false, .sysinfo⟩,
  ⟨.ipc, false, false, false, .ipc⟩,
  ⟨.fsync, false, true, false, .fsync⟩,
  ⟨.sigreturn, false, false, false, .sigreturn⟩,
  ⟨.clone, false, false, false, .clone⟩,
  ⟨.setdomainname, false, false, false, .setdomainname⟩,
  ⟨.uname, false, false, false, .uname⟩,
  ⟨.modify_ldt, false, false, false, .modify_ldt⟩,
  ⟨.adjtimex, false, false, false, .adjtimex32⟩,
  ⟨.mprotect, false, false, false, .mprotect⟩,
  ⟨.sigprocmask, false, false, false, .sigprocmask⟩,
  ⟨.create_module, false, false, false, .create_module⟩,
  ⟨.init_module, false, false, false, .init_module⟩,
  ⟨.delete_module, false, false, false, .delete_module⟩,
  ⟨.get_kernel_syms, false, false, false, .get_kernel_syms⟩,
  ⟨.quotactl, true, false, false, .quotactl⟩,
  ⟨.getpgid, false, false, false, .getpgid⟩,
  ⟨.fchdir, false, true, false, .fchdir⟩,
  ⟨.bdflush, false, false, false, .bdflush⟩,
  ⟨.sysfs, false, false, false, .sysfs⟩,
  ⟨.personality, false, false, false, .personality⟩,
  ⟨.afs_syscall, false, false, false, .afs_syscall⟩,
  ⟨.setfsuid, false, false, false, .setfsuid16⟩,
  ⟨.setfsgid, false, false, false, .setfsgid16⟩,
  ⟨.«_llseek», false, true, false, .llseek⟩,
  ⟨.getdents, false, true, false, .getdents⟩,
  ⟨.«_newselect», false, true, false, .select⟩,
  ⟨.flock, false, true, false, .flock⟩,
  ⟨.msync, false, false, false, .msync⟩,
  ⟨.readv, false, true, false, .readv⟩,
  ⟨.writev, false, true, false, .writev⟩,
  ⟨.getsid, false, false, false, .getsid⟩,
  ⟨.fdatasync, false, true, false, .fdatasync⟩,
  ⟨.«_sysctl», false, false, false, .sysctl⟩,
  ⟨.mlock, false, false, false, .mlock⟩,
  ⟨.munlock, false, false, false, .munlock⟩,
  ⟨.mlockall, false, false, false, .mlockall⟩,
  ⟨.munlockall, false, false, false, .munlockall⟩,
  ⟨.sched_setparam, false, false, false, .sched_setparam⟩,
  ⟨.sched_getparam, false, false, false, .sched_getparam⟩,
  ⟨.sched_setscheduler, false, false, false, .sched_setscheduler⟩,
  ⟨.sched_getscheduler, false, false, false, .sched_getscheduler⟩,
  ⟨.sched_yield, false, false, false, .sched_yield⟩,
  ⟨.sched_get_priority_max, false, false, false, .sched_get_priority_max⟩,
  ⟨.sched_get_priority_min, false, false, false, .sched_get_priority_min⟩,
  ⟨.sched_rr_get_interval, false, false, false, .sched_rr_get_interval_time32⟩,
  ⟨.nanosleep, false, false, false, .nanosleep_time32⟩,
  ⟨.mremap, false, false, false, .mremap⟩,
  ⟨.setresuid, false, false, false, .setresuid16⟩,
  ⟨.getresuid, false, false, false, .getresuid16⟩,
  ⟨.vm86, false, false, false, .vm86⟩,
  ⟨.query_module, false, false, false, .query_module⟩,
  ⟨.poll, false, true, false, .poll_time32⟩,
  ⟨.nfsservctl, false, false, false, .nfsservctl⟩,
  ⟨.setresgid, false, false, false, .setresgid16⟩,
  ⟨.getresgid, false, false, false, .getresgid16⟩,
  ⟨.prctl, false, false, false, .prctl⟩,
  ⟨.rt_sigreturn, false, false, false, .rt_sigreturn⟩,
  ⟨.rt_sigaction, false, false, false, .rt_sigaction⟩,
  ⟨.rt_sigprocmask, false, false, false, .rt_sigprocmask⟩,
  ⟨.rt_sigpending, false, false, false, .rt_sigpending⟩,
  ⟨.rt_sigtimedwait, false, false, false, .rt_sigtimedwait_time32⟩,
  ⟨.rt_sigqueueinfo, false, false, false, .rt_sigqueueinfo⟩,
  ⟨.rt_sigsuspend, false, false, false, .rt_sigsuspend⟩,
  ⟨.pread64, false, true, false, .pread⟩,
  ⟨.pwrite64, false, true, false, .pwrite⟩,
  ⟨.chown, true, false, false, .chown16⟩,
  ⟨.getcwd, true, false, false, .getcwd⟩,
  ⟨.capget, false, false, false, .capget⟩,
  ⟨.capset, false, false, false, .capset⟩,
  ⟨.sigaltstack, false, false, false, .sigaltstack⟩,
  ⟨.sendfile, false, true, true, .sendfile⟩,
  ⟨.getpmsg, false, false, true, .getpmsg⟩,
  ⟨.putpmsg, false, false, true, .putpmsg⟩,
  ⟨.vfork, false, false, false, .vfork⟩,
  ⟨.ugetrlimit, false, false, false, .getrlimit⟩,
  ⟨.mmap2, false, true, false, .mmap_pgoff⟩,
  ⟨.truncate64, true, false, false, .truncate64⟩,
  ⟨.ftruncate64, false, true, false, .ftruncate64⟩,
  ⟨.stat64, true, false, false, .stat64⟩,
  ⟨.lstat64, true, false, false, .lstat64⟩,
  ⟨.fstat64, false, true, false, .fstat64⟩,
  ⟨.lchown32, true, false, false, .chown⟩,
  ⟨.getuid32, false, false, false, .getuid⟩,
  ⟨.getgid32, false, false, false, .getgid⟩,
  ⟨.geteuid32, false, false, false, .geteuid⟩,
  ⟨.getegid32, false, false, false, .getegid⟩,
  ⟨.setreuid32, false, false, false, .setreuid⟩,
  ⟨.setregid32, false, false, false, .setregid⟩,
  ⟨.getgroups32, false, false, false, .getgroups⟩,
  ⟨.setgroups32, false, false, false, .setgroups⟩,
  ⟨.fchown32, false, true, false, .fchown⟩,
  ⟨.setresuid32, false, false, false, .setresuid⟩,
  ⟨.getresuid32, false, false, false, .getresuid⟩,
  ⟨.setresgid32, false, false, false, .setresgid⟩,
  ⟨.getresgid32, false, false, false, .getresgid⟩,
  ⟨.chown32, true, false, false, .chown⟩,
  ⟨.setuid32, false, false, false, .setuid⟩,
  ⟨.setgid32, false, false, false, .setgid⟩,
  ⟨.setfsuid32, false, false, false, .setfsuid⟩,
  ⟨.setfsgid32, false, false, false, .setfsgid⟩,
  ⟨.pivot_root, true, false, false, .pivotroot⟩,
  ⟨.mincore, false, false, false, .mincore⟩,
  ⟨.madvise, false, false, false, .madvise⟩,
  ⟨.getdents64, false, true, false, .getdents64⟩,
  ⟨.fcntl64, false, true, false, .fcntl64⟩,
  ⟨.gettid, false, false, false, .gettid⟩,
  ⟨.readahead, false, true, false, .readahead⟩,
  ⟨.setxattr, true, false, false, .setxattr⟩,
  ⟨.lsetxattr, true, false, false, .setxattr⟩,
  ⟨.fsetxattr, false, true, false, .fsetxattr⟩,
  ⟨.getxattr, true, false, false, .getxattr⟩,
  ⟨.lgetxattr, true, false, false, .getxattr⟩,
  ⟨.fgetxattr, false, true, false, .fgetxattr⟩,
  ⟨.listxattr, true, false, false, .listxattr⟩,
  ⟨.llistxattr, true, false, false, .listxattr⟩,
  ⟨.flistxattr, false, true, false, .flistxattr⟩,
  ⟨.removexattr, true, false, false, .removexattr⟩,
  ⟨.lremovexattr, true, false, false, .removexattr⟩,
  ⟨.fremovexattr, false, true, false, .fremovexattr⟩,
  ⟨.tkill, false, false, false, .tkill⟩,
  ⟨.sendfile64, false, true, true, .sendfile64⟩,
  ⟨.futex, false, false, false, .futex_time32⟩,
  ⟨.sched_setaffinity, false, false, false, .sched_setaffinity⟩,
  ⟨.sched_getaffinity, false, false, false, .sched_getaffinity⟩,
  ⟨.set_thread_area, false, false, false, .set_thread_area⟩,
  ⟨.get_thread_area, false, false, false, .get_thread_area⟩,
  ⟨.io_setup, false, false, false, .io_setup⟩,
  ⟨.io_destroy, false, false, false, .io_destroy⟩,
  ⟨.io_getevents, false, false, false, .io_getevents_time32⟩,
  ⟨.io_submit, false, false, false, .io_submit⟩,
  ⟨.io_cancel, false, false, false, .io_cancel⟩,
  ⟨.fadvise64, false, true, false, .fadvise64⟩,
  ⟨.exit_group, false, false, false, .exit⟩,
  ⟨.lookup_dcookie, false, false, false, .lookup_dcookie⟩,
  ⟨.epoll_create, false, true, false, .epoll_create⟩,
  ⟨.epoll_ctl, false, true, false, .epoll_ctl⟩,
  ⟨.epoll_wait, false, true, false, .epoll_wait⟩,
  ⟨.remap_file_pages, false, false, false, .remap_file_pages⟩,
  ⟨.set_tid_address, false, false, false, .set_tid_address⟩,
  ⟨.timer_create, false, false, false, .timer_create⟩,
  ⟨.timer_settime, false, false, false, .timer_settime32⟩,
  ⟨.timer_gettime, false, false, false, .timer_gettime32⟩,
  ⟨.timer_getoverrun, false, false, false, .timer_getoverrun⟩,
  ⟨.timer_delete, false, false, false, .timer_delete⟩,
  ⟨.clock_settime, false, false, false, .clock_settime32⟩,
  ⟨.clock_gettime, false, false, false, .clock_gettime32⟩,
  ⟨.clock_getres, false, false, false, .clock_getres_time32⟩,
  ⟨.clock_nanosleep, false, false, false, .clock_nanosleep_time32⟩,
  ⟨.statfs64, true, false, false, .statfs64⟩,
  ⟨.fstatfs64, false, true, false, .fstatfs64⟩,
  ⟨.tgkill, false, false, false, .tgkill⟩,
  ⟨.utimes, true, false, false, .utimes⟩,
  ⟨.fadvise64_64, false, true, false, .fadvise64_64⟩,
  ⟨.vserver, false, false, false, .vserver⟩,
  ⟨.mbind, false, false, false, .mbind⟩,
  ⟨.get_mempolicy, false, false, false, .get_mempolicy⟩,
  ⟨.set_mempolicy, false, false, false, .set_mempolicy⟩,
  ⟨.mq_open, false, true, false, .mq_open⟩,
  ⟨.mq_unlink, false, false, false, .mq_unlink⟩,
  ⟨.mq_timedsend, false, true, false, .mq_timedsend_time32⟩,
  ⟨.mq_timedreceive, false, true, false, .mq_timedreceive_time32⟩,
  ⟨.mq_notify, false, true, false, .mq_notify⟩,
  ⟨.mq_getsetattr, false, true, false, .mq_getsetattr⟩,
  ⟨.kexec_load, false, false, false, .kexec_load⟩,
  ⟨.waitid, false, false, false, .waitid⟩,
  ⟨.add_key, false, false, false, .add_key⟩,
  ⟨.request_key, false, false, false, .request_key⟩,
  ⟨.keyctl, false, false, false, .keyctl⟩,
  ⟨.ioprio_set, false, false, false, .ioprio_set⟩,
  ⟨.ioprio_get, false, false, false, .ioprio_get⟩,
  ⟨.inotify_init, false, true, false, .inotify_init⟩,
  ⟨.inotify_add_watch, true, true, false, .inotify_add_watch⟩,
  ⟨.inotify_rm_watch, false, true, false, .inotify_rm_watch⟩,
  ⟨.migrate_pages, false, false, false, .migrate_pages⟩,
  ⟨.openat, true, true, false, .openat⟩,
  ⟨.mkdirat, true, true, false, .mkdirat⟩,
  ⟨.mknodat, true, true, false, .mknodat⟩,
  ⟨.fchownat, true, true, false, .fchownat⟩,
  ⟨.futimesat, true, true, false, .futimesat⟩,
  ⟨.fstatat64, true, true, false, .fstatat64⟩,
  ⟨.unlinkat, true, true, false, .unlinkat⟩,
  ⟨.renameat, true, true, false, .renameat⟩,
  ⟨.linkat, true, true, false, .linkat⟩,
  ⟨.symlinkat, true, true, false, .symlinkat⟩,
  ⟨.readlinkat, true, true, false, .readlinkat⟩,
  ⟨.fchmodat, true, true, false, .fchmodat⟩,
  ⟨.faccessat, true, true, false, .faccessat⟩,
  ⟨.pselect6, false, true, false, .pselect6_time32⟩,
  ⟨.ppoll, false, true, false, .ppoll_time32⟩,
  ⟨.unshare, false, false, false, .unshare⟩,
  ⟨.set_robust_list, false, false, false, .set_robust_list⟩,
  ⟨.get_robust_list, false, false, false, .get_robust_list⟩,
  ⟨.splice, false, true, false, .splice⟩,
  ⟨.sync_file_range, false, true, false, .sync_file_range⟩,
  ⟨.tee, false, true, false, .tee⟩,
  ⟨.vmsplice, false, true, false, .vmsplice⟩,
  ⟨.move_pages, false, false, false, .move_pages⟩,
  ⟨.getcpu, false, false, false, .getcpu⟩,
  ⟨.epoll_pwait, false, true, false, .epoll_pwait⟩,
  ⟨.utimensat, true, true, false, .utimensat_time32⟩,
  ⟨.signalfd, false, true, false, .signalfd⟩,
  ⟨.timerfd_create, false, true, false, .timerfd_create⟩,
  ⟨.eventfd, false, true, false, .eventfd⟩,
  ⟨.fallocate, false, true, false, .fallocate⟩,
  ⟨.timerfd_settime, false, true, false, .timerfd_settime32⟩,
  ⟨.timerfd_gettime, false, true, false, .timerfd_gettime32⟩,
  ⟨.signalfd4, false, true, false, .signalfd4⟩,
  ⟨.eventfd2, false, true, false, .eventfd2⟩,
  ⟨.epoll_create1, false, true, false, .epoll_create1⟩,
  ⟨.dup3, false, true, false, .dup3⟩,
  ⟨.pipe2, false, true, false, .pipe2⟩,
  ⟨.inotify_init1, false, true, false, .inotify_init1⟩,
  ⟨.preadv, false, true, false, .preadv⟩,
  ⟨.pwritev, false, true, false, .pwritev⟩,
  ⟨.rt_tgsigqueueinfo, false, false, false, .rt_tgsigqueueinfo⟩,
  ⟨.perf_event_open, false, true, false, .perf_event_open⟩,
  ⟨.recvmmsg, false, false, true, .recvmmsg_time32⟩,
  ⟨.fanotify_init, false, true, false, .fanotify_init⟩,
  ⟨.fanotify_mark, true, true, false, .fanotify_mark⟩,
  ⟨.prlimit64, false, false, false, .prlimit64⟩,
  ⟨.name_to_handle_at, true, true, false, .name_to_handle_at⟩,
  ⟨.open_by_handle_at, false, true, false, .open_by_handle_at⟩,
  ⟨.clock_adjtime, false, false, false, .clock_adjtime32⟩,
  ⟨.syncfs, false, true, false, .syncfs⟩,
  ⟨.sendmmsg, false, false, true, .sendmmsg⟩,
  ⟨.setns, false, true, false, .setns⟩,
  ⟨.process_vm_readv, false, false, false, .process_vm_readv⟩,
  ⟨.process_vm_writev, false, false, false, .process_vm_writev⟩,
  ⟨.kcmp, false, false, false, .kcmp⟩,
  ⟨.finit_module, false, true, false, .finit_module⟩,
  ⟨.sched_setattr, false, false, false, .sched_setattr⟩,
  ⟨.sched_getattr, false, false, false, .sched_getattr⟩,
  ⟨.renameat2, true, true, false, .renameat2⟩,
  ⟨.seccomp, false, false, false, .seccomp⟩,
  ⟨.getrandom, false, false, false, .getrandom⟩,
  ⟨.memfd_create, false, true, false, .memfd_create⟩,
  ⟨.bpf, false, true, false, .bpf⟩,
  ⟨.execveat, true, true, false, .execveat⟩,
  ⟨.socket, false, false, true, .socket⟩,
  ⟨.socketpair, false, false, true, .socketpair⟩,
  ⟨.bind, false, false, true, .bind⟩,
  ⟨.connect, false, false, true, .connect⟩,
  ⟨.listen, false, false, true, .listen⟩,
  ⟨.accept4, false, false, true, .accept4⟩,
  ⟨.getsockopt, false, false, true, .getsockopt⟩,
  ⟨.setsockopt, false, false, true, .setsockopt⟩,
  ⟨.getsockname, false, false, true, .getsockname⟩,
  ⟨.getpeername, false, false, true, .getpeername⟩,
  ⟨.sendto, false, false, true, .sendto⟩,
  ⟨.sendmsg, false, false, true, .sendmsg⟩,
  ⟨.recvfrom, false, false, true, .recvfrom⟩,
  ⟨.recvmsg, false, false, true, .recvmsg⟩,
  ⟨.shutdown, false, false, true, .shutdown⟩,
  ⟨.userfaultfd, false, true, false, .userfaultfd⟩,
  ⟨.membarrier, false, false, false, .membarrier⟩,
  ⟨.mlock2, false, false, false, .mlock2⟩,
  ⟨.copy_file_range, false, true, false, .copy_file_range⟩,
  ⟨.preadv2, false, true, false, .preadv2⟩,
  ⟨.pwritev2, false, true, false, .pwritev2⟩,
  ⟨.pkey_mprotect, false, false, false, .pkey_mprotect⟩,
  ⟨.pkey_alloc, false, false, false, .pkey_alloc⟩,
  ⟨.pkey_free, false, false, false, .pkey_free⟩,
  ⟨.statx, true, true, false, .statx⟩,
  ⟨.arch_prctl, false, false, false, .arch_prctl⟩,
  ⟨.io_pgetevents, false, false, false, .io_pgetevents_time32⟩,
  ⟨.rseq, false, false, false, .rseq⟩,
  ⟨.semget, false, false, false, .semget⟩,
  ⟨.semctl, false, false, false, .semctl⟩,
  ⟨.shmget, false, false, false, .shmget⟩,
  ⟨.shmctl, false, false, false, .shmctl⟩,
  ⟨.shmat, false, false, false, .shmat⟩,
  ⟨.shmdt, false, false, false, .shmdt⟩,
  ⟨.msgget, false, false, false, .msgget⟩,
  ⟨.msgsnd, false, false, false, .msgsnd⟩,
  ⟨.msgrcv, false, false, false, .msgrcv⟩,
  ⟨.msgctl, false, false, false, .msgctl⟩,
  ⟨.clock_gettime64, false, false, false, .clock_gettime64⟩,
  ⟨.clock_settime64, false, false, false, .clock_settime64⟩,
  ⟨.clock_adjtime64, false, false, false, .clock_adjtime64⟩,
  ⟨.clock_getres_time64, false, false, false, .clock_getres_time64⟩,
  ⟨.clock_nanosleep_time64, false, false, false, .clock_nanosleep_time64⟩,
  ⟨.timer_gettime64, false, false, false, .timer_gettime64⟩,
  ⟨.timer_settime64, false, false, false, .timer_settime64⟩,
  ⟨.timerfd_gettime64, false, true, false, .timerfd_gettime64⟩,
  ⟨.timerfd_settime64, false, true, false, .timerfd_settime64⟩,
  ⟨.utimensat_time64, true, true, false, .utimensat_time64⟩,
  ⟨.pselect6_time64, false, true, false, .pselect6_time64⟩,
  ⟨.ppoll_time64, false, true, false, .ppoll_time64⟩,
  ⟨.io_pgetevents_time64, false, false, false, .io_pgetevents_time64⟩,
  ⟨.recvmmsg_time64, false, false, true, .recvmmsg_time64⟩,
  ⟨.mq_timedsend_time64, false, true, false, .mq_timedsend_time64⟩,
  ⟨.mq_timedreceive_time64, false, true, false, .mq_timedreceive_time64⟩,
  ⟨.semtimedop_time64, false, false, false, .semtimedop_time64⟩,
  ⟨.rt_sigtimedwait_time64, false, false, false, .rt_sigtimedwait_time64⟩,
  ⟨.futex_time64, false, false, false, .futex_time64⟩,
  ⟨.sched_rr_get_interval_time64, false, false, false, .sched_rr_get_interval_time64⟩,
  ⟨.pidfd_send_signal, false, true, false, .pidfd_send_signal⟩,
  ⟨.io_uring_setup, false, true, false, .io_uring_setup⟩,
  ⟨.io_uring_enter, false, true, false, .io_uring_enter⟩,
  ⟨.io_uring_register, false, true, false, .io_uring_register⟩,
  ⟨.open_tree, true, true, false, .open_tree⟩,
  ⟨.move_mount, true, true, false, .move_mount⟩,
  ⟨.fsopen, false, true, false, .fsopen⟩,
  ⟨.fsconfig, true, true, false, .fsconfig⟩,
  ⟨.fsmount, false, true, false, .fsmount⟩,
  ⟨.fspick, true, true, false, .fspick⟩,
  ⟨.pidfd_open, false, true, false, .pidfd_open⟩,
  ⟨.clone3, false, false, false, .clone3⟩,
  ⟨.close_range, false, false, false, .close_range⟩,
  ⟨.openat2, true, true, false, .openat2⟩,
  ⟨.pidfd_getfd, false, true, false, .pidfd_getfd⟩,
  ⟨.faccessat2, true, true, false, .faccessat2⟩,
  ⟨.process_madvise, false, true, false, .process_madvise⟩,
  ⟨.epoll_pwait2, false, true, false, .epoll_pwait2⟩,
  ⟨.mount_setattr, true, true, false, .mount_setattr⟩,
  ⟨.quotactl_fd, false, true, false, .quotactl_fd⟩,
  ⟨.landlock_create_ruleset, false, true, false, .landlock_create_ruleset⟩,
  ⟨.landlock_add_rule, false, true, false, .landlock_add_rule⟩,
  ⟨.landlock_restrict_self, false, true, false, .landlock_restrict_self⟩,
  ⟨.memfd_secret, false, true, false, .memfd_secret⟩,
  ⟨.process_mrelease, false, true, false, .process_mrelease⟩,
  ⟨.futex_waitv, false, false, false, .futex_waitv⟩,
  ⟨.set_mempolicy_home_node, false, false, false, .set_mempolicy_home_node⟩,
  ⟨.cachestat, false, true, false, .cachestat⟩,
  ⟨.fchmodat2, true, true, false, .fchmodat2⟩,
  ⟨.map_shadow_stack, false, false, false, .map_shadow_stack⟩,
  ⟨.futex_wake, false, false, false, .futex_wake⟩,
  ⟨.futex_wait, false, false, false, .futex_wait⟩,
  ⟨.futex_requeue, false, false, false, .futex_requeue⟩,
  ⟨.statmount, false, false, false, .statmount⟩,
  ⟨.listmount, false, false, false, .listmount⟩,
  ⟨.lsm_get_self_attr, false, false, false, .lsm_get_self_attr⟩,
  ⟨.lsm_set_self_attr, false, false, false, .lsm_set_self_attr⟩,
  ⟨.lsm_list_modules, false, false, false, .lsm_list_modules⟩,
  ⟨.mseal, false, false, false, .mseal⟩,
  ⟨.setxattrat, true, true, false, .setxattrat⟩,
  ⟨.getxattrat, true, true, false, .getxattrat⟩,
  ⟨.listxattrat, true, true, false, .listxattrat⟩,
  ⟨.removexattrat, true, true, false, .removexattrat⟩]

end Strace.Path
