# Formal model of strace in Lean 4 — design

`properties.jsonl` lists the properties. This file says what is modelled for each and how it is proved, what is trusted,
what is not modelled, and what was found wrong in the code. `MANIFEST.json` gives the status and the exact theorem names;
the table at the end of this file repeats it.

## Layout

* `lean/Verif/<Area>/Model.lean` — definitions only, each citing file and lines in `/repo`;
* `lean/Verif/<Area>/Spec.lean` — the small independent specification, where the statement needs one;
* `lean/Verif/<Area>/Lemmas.lean` and others — helper lemmas;
* `lean/Verif/<Area>/Props.lean` — the property theorems and, beside each, a concrete case meeting its hypotheses.

Small areas keep some of these parts in one file, in that order. In `Misc` each topic `X` has `X.lean` (model) and
`XProps.lean` (specification and theorems). `seeded/LOG.jsonl` records the wrong programs the theorems were tested with.

Conventions: C integers are `Nat` or `Int` with wrap-around written out where it can happen; undefined behaviour, an
access outside an array, an endless loop and a fatal exit are distinct outcomes (`none`, `bad`, `die`, …), so theorems
that promise a result also exclude these. Loops that might not end take a bound and the theorems show that every
sufficiently large bound gives the same result.

A theorem with the suffix `_partial` proves less than the property; its doc comment or the table says what is missing.
Most of them are partial because the code does violate the full property: then the negation is proved on a concrete
witness, and the theorem holds for exactly the remaining cases or a stated part of them.

## Plan per property

| Id | Modelled | Proof |
|---|---|---|
| C01 | `string_to_uint_ex` with `strtoll(…,10)` over byte lists | exact characterisation against a grammar (iff) |
| C02 | number_set.c, 32-bit slots, growth, `not` flag | refinement to `Nat → Bool`, induction over histories |
| C03 | `is_complete_set` | partial (no complement or empty) + negation witness |
| C04 | `qualify_tokens`, `strtok_r` tokenisation | denotation theorem for every string and decoder |
| C05 | `qualify_syscall*` over abstract syscall tables | membership iff, per personality |
| C06 | `parse_inject_token` when= branch | iff against a grammar |
| C07 | counters of `tamper_with_syscall_entering` | closed form by induction over invocations |
| C08 | tcb injection flags through entering/exiting | negation witness + partial theorem |
| C09–C11, C57, C58 | `string_quote` and its callers on bytes | decoder as spec, round trip by induction |
| C12, C13 | xlat.c | OR/containment invariants; binary search = linear search |
| C14, C55, C59 | `ts_*` on (sec,nsec), ticks, `parse_ts` | agreement with integer nanoseconds; decimal denotation |
| C15, C16, C60 | both cBPF generators and a cBPF interpreter | program correctness by induction over the table |
| C17, C26, C27, C62 | wait statuses, `next_event`/`dispatch_event`, restart operator | simulation with a kernel stop automaton |
| C18 | trie.c | refinement to a function, induction over depth and histories |
| C19–C21, C61 | ucopy.c over an abstract tracee memory | cache invariant; loop invariants |
| C22, C23, C29, C49 | tcb table, pid cache, exec switch, growing arrays | invariants over histories |
| C24, C25, C51 | output machine (printleader, line_ended, staged output) | invariants over all interleavings |
| C28, C30, C52 | exit code, event queue, syscall limit | histories |
| C31 | detach and cleanup against a stop automaton | decision theorems for every state and later reports |
| C32–C35 | decoding loops over arbitrary tracee data | measure + bounds; witness for C34 |
| C36, C37 | print_array_ex, iovec printing and dumping | exact prefix; shares sum up |
| C38–C41 | dump, signal mask, next_set_bit, select text | decoders as specs; bounds; witnesses |
| C42, C43, C63 | count.c | fold = history sums; comparator laws; columns |
| C44 | delay.c + restart_delayed_tcbs | invariant over timed histories |
| C45, C65 | mmap_cache.c | sortedness invariant + binary search; histories |
| C46, C47 | make_env, get_os_release | denotation; witness + partial |
| C48, C64 | list.h heap model, poke.c on top of it | heap refinement to sequences |
| C50 | retval/delay vectors and rule parsing | identity of values over all rule lists |
| C53 | shuffle_scno | involution |
| C54 | pidns.c over an abstract system | soundness and completeness for any cache content |
| C56 | ioctl_lookup, ioctl_next_match | contract of bsearch + induction |
| C66, C67 | pathtrace.c over the whole x86_64 and i386 tables | shape of each row against the kernel's interface; loops by induction |
| C68 | `sigstr_to_uint`, `find_errno_by_name`, `signame`, `err_name` with the tables of all architectures | iff against a grammar; round trip |
| C69 | `process_opt_p` | list of words; iff |
| C70 | the PATH search of `startup_child` with its buffer | buffer invariant by induction over PATH |
| C71, C72 | `parse_inject_token`, `parse_inject_expression`, `qualify_inject_common`, poke payloads | token grammar, fold over tokens, table update; order independence |
| C73 | `qualify` | iff |
| C74 | `get_error`, `arch_get_error` (x86_64), the result part of `syscall_exiting_trace` | grammar of the result text with unique reading; register to text |
| C75 | `-T` option, `ts_sub`, the fraction | arithmetic; numerals |
| C76 | `getllval`, the decoders of calls with 64-bit arguments, their argument counts | layout of arguments in registers per architecture; case analysis over kinds of tracee, values arbitrary |
| C77 | `decode_socket_subcall`, `decode_ipc_subcall`, System V IPC decoders, `set_tcb_priv_data` | the kernel's multiplexers as relations; memory on entry and on exit are separate |
| C78 | `syscall_entering_trace`, `syscall_exiting_decode`, `print_stopped`, TE_STOP_BEFORE_EXECVE, start of the tracee | flags over histories of calls of any length; induction over the history against a specification that speaks of the calls alone |
| C79 | TE_STOP_BEFORE_EXECVE, TCB_SKIP_DETACH_ON_FIRST_EXEC | the same histories |
| C80 | `syscall_exiting_decode`, `maybe_load_task_comm` | the same histories, with the name the kernel has for the task beside the one kept |
| C81 | `dumpio`, `dumpiov_upto`, `dumpiov_in_msghdr`, `dumpiov_in_mmsghdr` | sets, memory and calls arbitrary; the addresses dumped are compared with those transferred; induction over vectors and messages |
| C82 | 27 decoders of packed words, over the tables of area Xlat; the printed text as a list of tokens | a reader is written down separately (drop comments, evaluate the C expression); every decoder's text evaluates to the word; bitwise identities for all words; where it fails, the failing words are described and the failure proved |
| C83 | `printstatus` | parts shown against the word, bitwise for all words; the words the kernel makes, for all codes, signals and events |
| C84 | `decode_poll_exiting` with a bounded buffer | induction over the elements; text equal to a specification with `toString`, exact condition for a cut, all writes in bounds |
| C85 | `printargv`, `printargc` | induction over the array in memory, for every ending (NULL, fault, end of the address space) |
| C86 | the loops of dm.c over memory | measure data_size - offset; invariant: structures in order and inside; completeness by induction over well-formed chains |
| C87 | the decoders of structures with a size: what is read, which fields are shown, the bytes after them | the text as tokens; the value of each name compared with the bytes passed, padded with 0; the text is a structure by an automaton; perf_event_attr by induction over a list of fields with offsets and conditions; determinacy of the bytes from the text |
| C88 | decoding of socket addresses of all families, and the lengths around them in accept, getsockname, getpeername, recvfrom, sendmsg and recvmsg | the buffer as a list of bytes, a read beyond it is undefined; each family's text compared with a table of fields (name, offset, width, byte order) written from the kernel headers; injectivity of the native form of AX.25 addresses; locality in the bytes below both lengths |
| C89 | the same printers applied to an address in a control message, without padding | negation with witnesses for AF_INET6 and AF_UNIX; safety for all other families and lengths |
| C90 | the printers of CPU sets, event code sets, ICMP filters and node masks, on top of the bit search of C40 | the set in memory is the specification: a number is a member if the bit of the byte that holds it is set; lists compared by order and membership |
| C91 | printing of siginfo_t, native and 32-bit | the kernel's siginfo_layout and a table of members (name, offset, width, sign) for each layout as the specification |
| C92 | lists of datagrams received, the parsers, the loop over protocols and the cache of 1024 places | an encoder of the messages of the kernel as specification, induction on messages and datagrams; invariant of the cache over histories |
| C93 | get_fd_nl_family on the text of details, the walk over attributes and the table of names | the text written for a socket is read back; induction on attributes and messages |
| C94 | the union of register structures as 4-byte words, the three ways of reading, the mode in force and the tracees | refinement: lines of calls and results of any history equal those of a specification from the registers of the tasks; partial, as the claim is false for three kinds of calls |
| C95 | the same machine with arbitrary answers of the kernel | invariant: the log tells the mode of every tracee that is there |
| C96 | print_struct_msghdr, the loop over a vector of messages with the table of name lengths saved on entering, the vector of buffers with the bytes left, print_array_ex with a printing function that has a state | induction on the array; the text equals a listing of messages read at their addresses |
| C97 | the loop over options and the checks after it (init): a state of some forty variables, the order of checks, messages about options without effect, -D, -t, -x, -y, -f, -I, -q, -o, --seccomp-bpf, --kill-on-exit | the variables are a function of the list of options (induction from the end); each check is then a condition on the list; the result is compared with a specification that speaks only of which options are in the list and which argument comes last |
| C98 | the beginning of a line (printleader): process number and name, time of day, relative time, call number, instruction pointer, with widths and precisions | a reader is written that takes the text apart, not knowing the printing functions; it gives back what was to be told, for all configurations and events |
| C99 | the static variable that holds the time of the line before, over a history of lines in several files, published or not | induction over the history; the two ways in which the claim fails are given as histories |
| C100 | the queue of captured frames, and the places where it is filled and printed: on entering and leaving a call, at a signal, on a change of personality, on exit; the text of a frame | induction over the history with the invariant that the queue holds exactly the stack of the call the process is in; histories for each way in which the claim fails |
| C101 | the cache of addresses of the libdw unwinder (buckets, generations, least recently used), the callback with its depth; the loop of the libunwind unwinder | invariant: an entry of the present generation holds what is known at present; the walk is then equal to one without a cache |
| C102 | descriptor tables with lowest-free allocation, the placeholders, opening the output, the fork, closing and executing, the redirection; the command's side of the pipe | each step described descriptor by descriptor; the program's table is shown equal to the initial one |
| C103 | the argument of -u; credentials with the kernel's rules for setgroups, setregid, setreuid; the seccomp filter and which calls it makes fail before a tracer is there | case analysis over the steps; the argument by the characterization of string_to_uint |
| C104 | the table of tracees of C22 with attached and unattached records, the loops of startup_attach and attach_tcb, attempts that fail by an oracle | invariant: attached records are a permutation of the traced processes; a frame for the unattached ones; a measure for the end of the loop |
| C105 | the scan of an fdinfo file for several prefixes, the order in which the kinds of decoration are tried, what is printed of each | the lines of the file are arbitrary but for the one that tells; by induction over them the scan finds it; then by cases over the kind of object; readers for the text |
| C106 | the list of vCPUs of a tracee and vcpu_get_info, with the cache of mappings of C45 and C65 and a process that creates, maps, closes and runs vCPUs | invariant over histories: a resolved record is at the start of a mapping of its vCPU while the cache is valid; witnesses for the histories where it is not |
| C107 | the slot for private data, what is allocated, the calls of a tracee from attaching to dropping | invariant over histories of calls: the slot is empty between calls; witnesses for the histories where it is not |
| C108 | the printing of classic and eBPF instructions as tokens, with the tables of constants | round trip: a reader of C with the constants of the headers, and the bits that the masks of each class cover |
| C109 | the test child and its stops as a list of wait results; the printing as a list of members with values | the loop is inverted one stop at a time; the members of the structure as a table, with a case split on the length |
| C110 | the two loops over tracee memory, the context walk by recursion on the length that is left | round trip from the encoded list to what is shown; locality: memories that agree on the buffer give the same output |
| C111 | `print_getsockopt`, `print_setsockopt` and the printers they call, with the numbers of x86; memory as a partial function | read-back of the bytes for every option; memories that agree in the value give the same output; witnesses for the exceptions |
| C112 | `parse_secontext` with its loop over colons and its stripping of newlines, `print_context` over the model of `string_quote`, the names `selinux_getfilecon` and `selinux_getfdcon` look up, what they show, and the directory each modelled decoder leaves in `last_dirfd` when it prints a path | fields split by an independent function, uniqueness of the part, a reader that splits at the first mark and decodes; lookups of whole histories equal a table of what the manual pages say; two witnesses |
| C113 | thirty decoders that print in both phases, as token lists depending on what can be read on entering and exiting; the generic part of `ioctl` | a pushdown reader given separately; arrays are values by induction, the rest by running the reader over each case | 
| C114 | `check_seccomp_order(_tracer)`, `check_seccomp_filter(_properties)`, `init_seccomp_filter`: the loop over wait results with the step and the flag, the last wait, the choice of the program | filtering on and order b iff the events are those of a kernel with order b (spec: stops of a call per order, the child's two calls), by induction on the events; the child's end by the events used |
| C115 | `ioctl_decode_command_number` with `evdev_decode_number`, `hiddev_decode_number`, `term_ioctl_decode_command_number`; `ioctl_print_code`; the printing of the request in `SYS_FUNC(ioctl)`; expressions as macro applied to arguments | spec: value of each macro by the headers; every expression has the value of the request iff the request is not in a list of six forms; witnesses for these |
| C116 | `sprint_mac_addr` with its static buffer and `xappendstr`, `print_mac_addr`, `print_hwaddr`, `hwaddr_sizes`, `decode_nla_hwaddr` and the callers | a reader of addresses as spec; invariant of the buffer over histories; readable iff not one of two cases; witnesses |
| C117 | `decode_payload`, `decode_nlmsgerr`, `decode_nlmsghdr_with_payload`, one function by recursion on the length; memory gives headers; decoders of families are a parameter | strong induction on the length: pieces tile the payload; spec of the kernel's answer (`netlink_ack`); attributes right iff capped or length a multiple of 4; depth |
| C118 | `print_fcntl`, both entry points, the structures of locks and owners in both layouts, the two phases and the field of the result that goes from call to call | case analysis over the commands; little-endian members by induction; histories by induction; counterexample for F_GETOWN |
| C119 | `printstr_ex` and `string_quote` with QUOTE_OMIT_TRAILING_0, as users of it call them (model of C09) | The text decodes to the bytes within the limit, less a NUL at their end; completeness iff the four conditions fail; witness |
| C120 | The choice of the extent of the display by fifteen kinds of decoders, `printstr_ex`, `printpathn`, `print_array_ex` | Contract of each call as a specification of its own; the shown equals the data for every memory that holds it; two memories that agree on the data are shown alike; witnesses that meet the contract where that fails |
| C121 | For 45 calls what is printed on entering and on exiting, `umove_or_printaddr`, `print_sigset_addr_len_limit`, `is_erestart` | The kernel's interface as tables of what is read and written; case analysis over the calls with general lemmas on fetching; witnesses for the exceptions |
| C122 | the field `auxstr` of each thread, the static buffers, and what each of the 43 decoders that use the field does with it on entering and exiting (`Expl`) | per-call case analysis over any state, induction on the history; an iff names the calls that borrow |
| C123 | all cases of the decoders of prctl and arch_prctl in both phases: which arguments, from which memory (`Prctl`) | case analysis over the options; an iff for which options the line determines what the kernel looks at |
| C124 | futex, fsconfig, quotactl, quotactl_fd, keyctl and ptrace on x86_64: for each operation the arguments shown when the call begins and when it ends, with the separators; reading of strings and structures; the binary search of named offsets | a table of what the kernel does with each argument; every use is shown by a token of the right phase, the shape of all tokens is arguments in order with one comma between, every token is true of memory then; the search by an invariant of its loop |
| C125 | `call_summary_pers` with its column widths, formats, percentages and totals; binary64 arithmetic with rounding to nearest even; `%.*f` | a reader of tables (`fields`, `runs`) recovers every field; rounding is monotone and has relative error 2^-53, so that every field fits its column and shows its value |
| C126 | the decoders of signal.c, with the phases, the lengths of sets, both word sizes and the layouts of actions | the token of each argument against the memory it is of, call by call; bits of masks by testBit; the order by the indices of the tokens |
| C127 | the branch of parse_ts with floating point numbers, on exact binary64 numbers in units of 2^-1074, with a contract of strtod | monotony and errors of rounding (area Table); a lemma that rounding a quotient or product of a double does not reach the next whole number; the text by its parts |
| C128 | a transition system of the kernel's tasks (traced, options, held at the first stop, dead) and strace's records: clone, death, report of a stop (`maybe_allocate_tcb`, `startup_tcb`), report of an end, waiting with nothing to report | an invariant over all runs that the family, computed from the history alone, is exactly the traced tasks, and that whoever runs has a record |
| C129 | bpf(), its 37 decoders as lists of fields with their tests of the length, the data at the end, both phases (bpf.c, bpf_attr.h) | each byte of each structure is covered by a field (a finite check of the layouts, by the kernel), generic lemmas for all contents and lengths |
| C130 | The decoders of mem.c as lists of what is shown of the arguments, the words of the old mmap from memory, the vector of mincore from `print_array_ex`. Flags and names are the numbers they come from. | A table of the parameters and their types in the specification, and a relation between a register and a number of a type; offsets as products of the unit; bits of the flags of mremap; induction over the pages of mincore. |
| C131 | The decoders of aio.c: the structure of a request from 64 bytes of memory, its fields by operation, arrays of addresses and of events by `print_array_ex`. Buffers, vectors, times and sets of signals are kept as addresses. | A layout of the fields and of what the kernel looks at in the specification; membership of the fields in what is shown in both directions, places in increasing order, induction over the array. |
| C132 | The text of a limit as character codes in the styles of `-X`, the structures of limits from memory, and the calls about limits and priorities. | A reader of such texts in the specification and a round trip for every limit; lengths of decimal texts for the buffer; words in memory for the structures. |
| C133 | The decoders of socket, socketpair, pipe, pipe2, send and sendto, with the tables of protocols generated from src/xlat. | Prefixes of the names of each family in the specification, checked over the tables for every protocol found by a search; tables without repeated names make the search injective; words in memory for pairs. |
| C134 | `io_uring_setup` at both ends, its two structures of offsets, `io_uring_enter`, `kcmp` | members are looked up in a list of the members of the interface, whose places are sums of sizes; membership of tokens in both directions; the depth of brackets by induction on texts |
| C135 | `io_uring_register` at both ends: the frame, the fixed structures, the probe | a relation that walks over declarations of the interface, each after the one before it; members of the model are shown to be those declarations; induction on the list of members |

## Trusted base

* Lean 4.33.0's kernel and the axioms `propext`, `Classical.choice`, `Quot.sound`; which of them each theorem uses is
  listed under *Axioms* below. No axiom is added, there is no `sorry`, `native_decide` or `bv_decide`. Concrete
  witnesses use `decide` or `decide +kernel`: the kernel evaluates them.
* The reading of the C text: the model was written by hand from the cited lines; nothing was compiled or run.
* A 64-bit little-endian build (`sizeof(long) = 8`) where sizes matter and nothing else is said (C40 covers both byte
  orders, C19–C21 any word and page size).
* The contracts of libc and the kernel below.

### Contracts

| Area | Contract |
|---|---|
| StringToUint, Time | `strtoll`/`strtoul` base 10 written as functions (blanks, sign, digits, saturation with ERANGE) |
| Filter | `strtok_r`/`strchr` written as functions; regular expressions and syscall tables are arbitrary parameters; `die` exits |
| Inject | ptrace changes the registers as asked; the result of a call is an arbitrary parameter |
| Quote | buffers from `xmalloc`/`alloca` have the size asked for |
| Xlat | tables meet the contract of their storage kind (sorted without duplicates; index base), as generated by `xlat/gen.sh` |
| Seccomp | classic BPF instructions as in the kernel documentation; tables satisfy `Sane` (the audit flag is a bit above all numbers) |
| Trie | `xcalloc` zeroes |
| UCopy | `process_vm_readv/writev`, `PTRACE_PEEKDATA/POKEDATA`: a call that does not fail transfers the true bytes; a failing one changes nothing; memory is accessible by pages; any call may fail with any error |
| Ev, Detach | wait statuses and stops as in ptrace(2), both orders of seccomp and syscall stops; a stopped tracee reports nothing until resumed or killed |
| Delay | POSIX timers as in the header of `Delay/Model.lean`; whether arming keeps a pending notification is a parameter |
| Out | `fopen`/`write` succeed; text is abstracted to tokens |
| Count | `qsort` returns a sorted permutation for a consistent comparison |
| Misc/Scno | `bsearch` returns some matching index if there is one |
| Misc/Maps | `sscanf` gives the ten fields or fewer; mappings change only together with an invalidation |
| Misc/Pidns | a process has one id per namespace it is in; `/proc/PID/status` lists them outermost first; `NS_GET_PARENT` ends at strace's own namespace; the system does not change during one translation |
| Path | `/proc/PID/fd` links, `lstat`, `umovestr` and `umoven` give arbitrary answers; their meaning is stated in C67 |
| Cli | `strtoull` and `sscanf("%2hhx")` written as functions; `stat`, `getcwd` and PATH are arbitrary; `strtod` in delays is a parameter |
| Result | printf conversions written as functions; PTRACE_GET_SYSCALL_INFO reports an error exactly for -4095..-1 and otherwise the register; `strerror`, paths after descriptors and process names are parameters (nothing, or starting with `<`, ` [` or ` /`); the clock readings are in order |
| Args | how the kernel takes 64-bit arguments on each architecture, and what `socketcall` and `ipc` do with theirs, is written down from knowledge of the kernel: its source is not in this sandbox. For `fadvise64_64` on s390 and `sync_file_range` on csky that knowledge is not certain and nothing is claimed. Tracees of C77 have 4-byte words and are not s390; sets of flags and objects at an address are not broken up |
| Hide | one tracee with one thread; filters give one yes or no for each call; names are changed by exec and PR_SET_NAME of the task alone (not through /proc); `-c` without `-C`, NOMMU and failing ptrace requests are not modelled. |
| Dumpio | which bytes a call transfers is written down from the manual pages; memory is what it is when the call has ended; the hex dump of each piece is C38. |
| Pack | the masks are those of Linux on x86_64; the format of numbers (decimal, hex, octal) is left out, so two numbers are equal if their values are; tables are arbitrary, with names that stand for their values and the storage contract of area Xlat; `major`, `minor` and the wait macros are glibc's. |
| Tracee | `umove` reads all bytes or fails (C77); numbers are little-endian; sizes and offsets of structures are those of the bundled Linux headers on x86_64; texts of flags and times are arbitrary. |
| Sized | reading is all or nothing (C77) and the structure does not change between two reads of the same stop; numbers are little-endian; how a number is written as flags, a descriptor or a signal is C01-C04, C82. |
| Sock | reading is all or nothing (C77); little-endian machine with the structure layouts of the bundled kernel headers; how a number is written as a name, an interface, a descriptor or an internet address is not part of it (C01-C04, C67). |
| Sets | reading is all or nothing (C77); sizes below 2^28 bytes; the size of the kernel's CPU set is a parameter; the elements of a node mask are those of C36. |
| Sig | x86-64 and i386 layouts of siginfo_t (not part of /repo) with all optional members; siginfo_layout of the kernel is written from kernel/signal.c, which is not part of /repo either; how signals, errors and flags are named is not part of it. |
| Diag | The layouts of struct inet_diag_msg, unix_diag_msg and netlink_diag_msg are those of the bundled headers; the kernel answers a request for a socket of the file system with one message (Linux 4.4.4 or later); how addresses are written (inet_ntop) is not part of it. |
| Regs | answers of ptrace at a stop: PTRACE_GET_SYSCALL_INFO reports the low half of orig_ax sign-extended, the architecture by the entry used and the registers of the arguments; PTRACE_GETREGSET stores the small set for 32-bit code; PTRACE_GETREGS always the large one |
| Arr | an element printer is a function of its state and the element; the number in an index is not written out |
| Msg | memory does not change while a call is being shown; on exiting it may differ in any way from entering |
| Opt | getopt_long, the parsing of arguments and the effects of options on the system (opening files, uid lookup) are not part of the model; an option with an argument that is refused is one constructor (`bad`) |
| Lead | localtime and strftime are a parameter: from seconds to eight characters or nothing; printf conversions (%-5u, %*.*ld, %0*lx) are written out; readings of the clock are given by events |
| Unwind | what libdw and libunwind report (frames, what is known about an address, error messages) is given; what libdw knows changes only with the generation of mappings; the exit stop is the last before the end; malloc and asprintf do not fail |
| Fds | open, pipe, close, dup2, fcntl and execve do what their manual pages say and do not fail; strace is started without close-on-exec descriptors (execve leaves none) |
| Cred | setgroups, setregid, setreuid and SECCOMP_RET_TRACE as in their manual pages, capabilities go with effective user 0; libc's getpid returns the raw error; getpwnam and initgroups are given |
| Attach | attaching to a process one traces already fails, other attempts succeed or fail arbitrarily; /proc/PID/task lists arbitrary entries below 2^31 |
| Deco | /proc/PID/fd and fdinfo as functions of process and descriptor; lines of the length the kernel writes fit the buffer; stat of a name and details of a socket are oracles |
| Kvm | the cache holds the named mappings in order and is dropped by every call that changes mappings (C45, C65); a kvm_run structure is seen at the beginning of each mapping of its vCPU |
| Priv | the allocator gives addresses that are not 0 and not in use (`Fresh`); calls with unknown numbers have no decoder (`Call.Ok`) |
| Bpf | tokens in place of characters: numbers are spelled by printf; the memory of the program can be read (arrays that cannot are C36) |
| Misc/Lists, Poke | `malloc` gives fresh non-NULL addresses; `realloc` copies and may move |
| Psi | system call numbers and layout are those of x86_64; ptrace, waitpid and kill are the events given; the spelling of values is that of C46 and others |
| Packed | the call has succeeded; memory is a partial function of addresses, read all or nothing (C19); text of contexts is a place in memory, its quoting is C09 |
| Sockopt | memory is what `umoven` gives; text forms of numbers, strings and addresses are C12, C88 and others; TCP_AO_ADD_KEY and filter programs are left out |
| Secon | getfilecon, realpath, stat and selabel_lookup are given functions of the name; contexts have no NUL; PATH_MAX is 4096 |
| Gram | what `print_array` prints is an address or brackets around members, with "..." at most at the end; printers of members print one value; `umove_or_printaddr` prints one value if it fails |
| Order | what `waitpid`, `ptrace`, `prctl` and `fork` give is arbitrary; the debug messages and dump_seccomp_bpf are left out |
| Ioc | the two encodings of requests of Linux except SPARC's; the table of symbols is a parameter, the search in it is that of `Misc.ioctl_names` |
| Hw | the callers are those of the present code; `print_quoted_string` is that of `Quote` |
| Nlerr | the kernel makes answers as `netlink_ack` does; decoders of families are within their payload (C93 and others) |
| Fcntl | the third argument is shown once, in the phase its memory belongs to; the result's format and explanation are of this call, except for F_GETOWN |
| Filled | What calls write: the manual pages' contracts (`Spec.Wrote`); 64-bit programs, verbose, not raw, not netlink; buffers that end below 2^64 and sizes below 2^31 |
| Inout | What calls read and write: `Spec.inputs`, `Spec.written`, `Spec.Legal` (x86-64); sleeps are interrupted by ERESTART_RESTARTBLOCK only; waitid writes siginfo_t up to si_status and the usage only if a child was found |
| Expl | decoders of results with an explanation; threads interleave and the buffers are shared; the texts themselves are given with the call (made in other areas) |
| Prctl | prctl and arch_prctl of 64-bit programs; numbers stand for their names and flags; what the kernel looks at is taken from its manual pages and interface |
| Ops | numbers shown as names or flags are the numbers; structures are shown by their bytes; arrays and filters that have a length of their own are an address and a length (area Filled); registers of register sets are not modelled; programs are 64-bit ones of x86_64 |
| Table | `double` is IEEE 754 binary64, round to nearest even, and `printf` converts it exactly (`%.*f`, ties to even); integers below 2^53 are converted exactly |
| Sigc | `shown_partial`, `in_order`, `not_before`, `failed_shows_addresses`, `results`: each argument of a call about signals shows what the kernel reads and fills |
| Tsf | `time_close_partial`, `accepted_form`, `undefined_form`: a time with a fraction is accepted if it is a number with a unit, and is read to a nanosecond |
| Fork | the kernel's clone with PTRACE_O_TRACECLONE, CLONE_UNTRACED and CLONE_PTRACE, and ECHILD, as in kernel/fork.c and wait(2) |
| Battr | numbers stand for the names, flags and descriptors that they are shown as; what is at an address in the attributes is not modelled; which bytes the kernel looks at and writes is given by the specification, from linux/bpf.h and kernel/bpf/syscall.c |
| Memc | `arguments`: registers are shown as the parameters of the table; `offset_bytes_partial`, `indirect_mmap`: offsets in bytes; `new_address`: exactly if used; `mincore_*`: one bit for each page, up to the limit or the first unreadable byte. |
| Aio | `submit_partial`, `request_partial`: each request, sound for all operations and complete for five; `events`, `events_failed`: exactly the returned events; `setup_shown`, `cancel_shown`. |
| Lim | `limit_exact`: reading the text gives the limit; `set_limits`, `get_limits`, `both_limits`: structures from the right memory with the right width; `priorities`; `product_fits`. |
| Net | `protocol_family_partial`: names of the family; `protocol_number`, `protocol_injective`, `packet_injective`: the number is not lost; `pairs`: the two descriptors; `sends`. |
| Ring | `setup`, `enter` and `kcmp` give the tokens that are printed for a call, from its arguments and from memory at its beginning and end |
| Rreg | `run` gives the tokens that io_uring_register prints, from its arguments and from memory at its beginning and end |

### Not modelled

Those of the several hundred decoders under src/ that no row above names, the table generators, option parsing by
`getopt_long` as a whole, floating point other than in the summary table (`%g` times, fractions of time constants), stack
unwinding (libunwind/libdw), output pipes and log rotation, non-Linux or 32-bit specific register access, `personality`
detection from registers other than on x86_64, and failures of `malloc` other than as a fatal exit.

## Findings

Each is a behaviour of the code that contradicts a listed property; the theorem proves it of the model.

| No | Where | What happens | Theorem |
|---|---|---|---|
| 1 | number_set.c `is_complete_set` | an inverted set of all statuses counts as complete, a truly complete set may not | `NumberSet.isComplete_unsound`, `isComplete_incomplete` (C03) |
| 2 | syscall.c, TCB_TAMPERED_NO_FAIL | the flag is never cleared: after one `syscall=` injection later error injections are lost and plain failures shown as success | `Inject.injection_not_independent`, `plain_call_misreported` (C08) |
| 3 | msghdr.c `decode_msg_control` | a `cmsg_len` of at least 2^64−7 is rounded to 0 and decoding never ends | `Walk.control_endless` (C34) |
| 4 | desc.c `decode_select` | a set without ready descriptors leaves a stray `]` | `Bits.selectText_malformed` (C41) |
| 5 | signal.c `sprintsigmask_n` | verbose style does not fit its static buffer: strace exits | `Bits.sprintsigmask_verbose_overflows` (C39) |
| 6 | count.c `count_cmp`, `error_cmp` | 64-bit counters are compared as 32-bit ints | `Count.calls_misordered` (C43) |
| 7 | strace.c `get_os_release` | a component above 255 spills into the next | `Misc.release_misordered` (C47) |
| 8 | ucopy.c `umovestr` word fallback | the returned count is that from the start of the word; a NUL outside the limit is reported | `UCopy.umovestr_wrong_count`, `umovestr_beyond_limit` (C20) |
| 9 | ucopy.c `umoven` | a failure for a request of 2^32−1 bytes is reported as success | `UCopy.umoven_max_len` (C19) |
| 10 | filter_seccomp.c | call numbers beyond the table are traced or not depending on which generator's program is shorter | `Seccomp.beyond_table_let_through` (C60) |
| 11 | util.c `string_quote` | `--strings-in-hex=non-ascii-chars` is ambiguous under C's rule for `\x` | `Quote.quote_nonAsciiChars_ambiguous` (C09) |
| 12 | util.c `print_quoted_string_ex` | the buffer size wraps at 2^30−1 bytes in comment style | `Quote.quoteAlloc_wraps` (C10) |
| 13 | trie.c `trie_iterate_keys` | never ends at key 2^64−1; a start beyond the keys gives a huge count | `Trie.iterate_endless`, `iterate_wrong_count` (C18) |
| 14 | strace.c `next_event` | the extra event of a batch goes to a record freed by an earlier event of the batch; with pid 0 it can change strace's exit code | `Ev.extra_to_freed`, `exit_code_pid0` (C28, C30) |
| 15 | util.c `print_ticks` | tick rates that are not powers of ten are shown wrongly | `Time.clockComment_1024_wrong` (C55) |
| 16 | util.c `ts_div` | the intermediate product wraps | `Time.tsDiv_wraps` (C14) |
| 17 | ucopy.c `upoken` | does not invalidate the page cache: strace then shows the old bytes | `UCopy.poke_then_stale` (C61) |
| 18 | strace.c, delay injection | a signal injected together with `delay_enter` is lost | `Ev.delay_loses_signal` (C62) |
| 19 | strace.c under --seccomp-bpf | a call beyond the table with an event inside: its exit is missed | `Ev.beyond_table_missed` (C17) |
| 20 | strace.c `restart_delayed_tcb` | uses whatever personality is current | `Ev.delayed_wrong_personality` (C17) |
| 21 | strace.c `maybe_switch_tcbs` under --seccomp-bpf | exec by a non-leader thread: the next entry is taken for the exit of execve | `Ev.exec_switch_missed` (C17) |
| 22 | delay.c `delay_tcb` | the timer may be armed late by the time between two clock readings | `Delay.late_by_gap` (C44) |
| 23 | delay.c | arming may discard a pending notification; a tracee waits for another's delay | `Delay.discarded_notification` (C44) |
| 24 | delay.c, strace.c | a tracee that ends in its delay while the signal is pending: later delayed tracees are never let go | `Delay.lost_flag` (C44) |
| 25 | stage_output.c users | two tracees detached inside calls: their lines are glued | `Out.detach_glues` (C24, C51) |
| 26 | strace.c, syscall.c | a filtered-out exec by a thread leaves a mark; the next call is torn apart | `Out.exec_splits_next` (C25) |
| 27 | strace.c | a note inside a call tears it with -ff or a status filter | `Out.note_tears` (C25, C51) |
| 28 | strace.c | a tracee killed inside a call without exit event: the note is lost with the staged text | `Out.killed_lost` (C51) |
| 29 | strace.c | exec by a thread with a status filter: the first half of the line is lost | `Out.exec_halved` (C51) |
| 30 | syscall.c | a failed ptrace at entry is not staged: lines are glued | `Out.failed_ptrace_glues` (C24, C51) |
| 31 | strace.c `cleanup` | interrupted while a signal is about to be delivered: the signal is lost | `Detach.signal_lost` (C31) |
| 32 | strace.c `detach` | without PTRACE_SEIZE waits forever for a tracee that is in another stop | `Detach.waits_for_stopped` (C31) |
| 33 | util.c `dumpiov_upto` | stops at the first empty buffer | `Show.dump_stops_at_empty` (C37) |
| 34 | util.c `print_array_ex` | the number of elements is cut to 32 bits before it is compared with the limit | `Show.long_array_unlimited` (C36) |
| 35 | linux/x32/shuffle_scno.c | not one-to-one at −1 | `Misc.x32_clash` (C53) |
| 36 | pidns.c, util.c `proc_status_get_id_list` | with 33 nested namespaces, which the kernel allows, ids are read outside the array of 32 | `Misc.deep_overrun` (C54) |
| 37 | poke.c `alloc_poke_data` | list heads live in a `realloc`ed array but their items point at them: from the ninth rule on, lists lead to freed memory | `Misc.pokes_lost` (C64) |
| 38 | mmap_cache.c | the generation counter wraps: after exactly 2^32 changes the old map is used | `Misc.maps_stale` (C65) |
| 39 | syscall tables, `rename` | -P looks at the old name only | `Path.rename_missed` (C66) |
| 40 | pathtrace.c | `epoll_ctl`, `fanotify_mark`, `fsconfig`, `perf_event_open` and `close_range` with the descriptor asked for in another argument are not shown | `Path.epoll_ctl_missed`, `others_missed` (C66) |
| 41 | syscall tables, `getcwd` | the buffer's old content is taken for a path at entry | `Path.getcwd_spurious` (C66) |
| 42 | strace.c `startup_child` | an empty entry at the end of PATH is not searched, elsewhere it is the current directory | `Cli.trailing_colon` (C70) |
| 43 | filter_qualify.c `parse_poke_token` | `1g`, `-1` and blanks are taken as hexadecimal data; `,` is a rule without payload | `Cli.poke_loose` (C71) |
| 44 | filter_qualify.c `parse_inject_token` | `when=` may be given twice without complaint, the last one counts, while all other repetitions are refused | `Cli.when_twice` (C72) |
| 45 | syscall.c `get_error` | the flag for calls that cannot fail is ignored when the result comes from PTRACE_GET_SYSCALL_INFO: an i386 `setfsuid32` returning id 4294967294 is shown as -1 ENOENT, from registers as 4294967294 | `Result.info_never_fails` (C74) |
| 46 | util.c `getllval` on SH | the register skipped for `pread64` is skipped for every call whose 64-bit argument starts at index 3: the length of `fadvise64_64` and `sync_file_range` comes from the wrong registers, and their last argument from `u_arg[6]`, beyond the array of six | `Args.sh_fadvise`, `Args.sh_sync` (C76) |
| 47 | fadvise.c on csky | the advice is taken from the last register, the kernel takes it from the second | `Args.csky_fadvise` (C76) |
| 48 | syscall.c `decode_ipc_subcall`, ipc_semctl.c | the version of an `ipc` call occupies the private datum of the tracee, which is not overwritten: `semctl` with IPC_STAT, SEM_STAT, SEM_STAT_ANY, IPC_INFO or SEM_INFO and a version is shown with the version as the address of the buffer | `Args.semctl_version` (C77) |
| 49 | ipc_msg.c `msgrcv` | the pair of pointer and type of an `ipc` call of version 0 is read on exit, the kernel read it on entry: if the words change meanwhile other arguments are shown | `Args.msgrcv_changed` (C77) |
| 50 | syscall.c `syscall_exiting_decode` | returns for a call that is filtered out before it hides the log again: after an exec that fails and does not pass the filters, the next call of strace itself that passes them is shown and tampered with | `Hide.own_code_seen` (C78) |
| 51 | syscall.c `syscall_exiting_decode` | the test for an error before a name is loaded again looks at the result of the last call reported, not of this one: a task that renames itself after a reported failure keeps its old name in the trace | `Hide.comm_stale` (C80) |
| 52 | mmsghdr.c `dumpiov_in_mmsghdr` | takes the number of messages from the result, also if the call failed and it is -1: messages are dumped up to the first address that cannot be read | `Show.Dumpio.failed_sendmmsg` (C81) |
| 53 | syscall.c `dumpio` | a result of recv or recvfrom above the size of the buffer (MSG_TRUNC) is used as the number of bytes in the buffer; the decoder of the argument takes the minimum (net.c:331) | `Show.Dumpio.recv_beyond_buffer` (C81) |
| 54 | ipc_msg.c:31, ipc_sem.c:116 | `printflags_in` returns 0 if it printed a number without any name; `msgget(k, 0x1000\|0644)` is then shown with `0x1000` and `0644` run together as `0x10000644`, which reads as another number (shmget tests the flags instead and is right) | `Pack.get_flags_glued` (C82) |
| 55 | mem.c:74-77 | `mask` is an `unsigned int`, `flags` a 64-bit word: `flags &= ~mask` also clears bits 32 and up, which are not shown in abbreviated style | `Pack.mmap_high_lost` (C82) |
| 56 | mount.c:29-30 | in the same way bits 32 and up are not shown if the old magic number is present | `Pack.mount_high_lost` (C82) |
| 57 | term.c:69, 93 | if no flag is left the text ends in a bar (`B38400\|CS8\|`); the tests expect this | `Pack.oflag_trailing_bar`, `Pack.cflag_trailing_bar` (C82) |
| 58 | bpf_filter.c:55-93 | load, ALU and jump statements show only the low byte of the 16-bit code of a classic filter | `Pack.bpf_shown` (C82) |
| 59 | mem.c:70, quota.c:459, ioprio.c:46-49 | in verbose style an unknown part (for ioprio any class) is commented within the comment, `/* 0x3 /* MAP_??? */ */` | example in Pack/Props.lean (C82) |
| 60 | dm.c:364-365 | the event number of the last device in a list, hence of the only device, is never shown | `last_event_hidden` (C86) |
| 61 | dm.c:364-366 | an event number is bounded by the next offset of its device, not by the size of the data | `event_outside` (C86) |
| 62 | dm.c:321-333 | 12 bytes of a device must lie in the data but 16 must be readable, so a short name at the end of a page is shown as an address | `short_name_unread` (C86) |
| 63 | listmount.c:49-59, statmount.c:60-70 | a request of 25 to 31 bytes: the part of mnt_ns_id that is passed is neither shown nor marked | `mntIdReq_short_hidden` (C87) |
| 64 | sched.c:118-125, 178 | sched_getattr compares attr.size with itself, so bytes the kernel wrote beyond the 56 known ones are never marked with `...` | `schedGet_more_hidden` (C87) |
| 65 | sched.c:147 | sched_setattr with SCHED_FLAG_KEEP_PARAMS alone hides the policy, which the kernel sets | `schedSet_policy_hidden` (C87) |
| 66 | msghdr.c:213-222, sockaddr.c:280-296 | an IPv6 address of 25 to 27 bytes in an IP_ORIGDSTADDR control message at the end of the control data: up to 3 bytes beyond the heap buffer are read and shown as a part of the scope id; if it is not at the end, bytes of the padding or of the next message are shown | `origDst_beyond_in6`, `origDst_leak` (C89) |
| 67 | msghdr.c:213-222, sockaddr.c:116-119, util.c:1257-1263 | an AF_UNIX address in such a message with a path that is not terminated: one byte beyond the buffer is read, and with --secontext a whole C string | `origDst_beyond_un` (C89) |
| 68 | sockaddr.c:437-464 | digipeaters that are passed but not counted by sax25_ndigis are neither shown nor marked with `...` | `ax25_hidden` (C88) |
| 69 | evdev.c:154-157, 250-294 | the largest event code is passed as the number of codes: the switch SW_MACHINE_COVER (16), and every other largest code, is never shown as a member of a set | `evdev_hides` (C90) |
| 70 | evdev.c:159-170 | whole words are read although fewer bytes were returned: a set at the end of readable memory is shown as its address | `evdev_overread` (C90) |
| 71 | printsiginfo.c:275-280 | signals chosen by F_SETSIG that tell about a file (codes POLL_IN to POLL_HUP with other signals than SIGIO) are shown with the band as si_pid and the descriptor as si_int and si_ptr | `poll_as_source` (C91) |
| 72 | printsiginfo.c:160-216 | SIGTRAP of a ptrace event and faults with SI_KERNEL are shown with an si_addr that the kernel did not set: the process and user numbers, or NULL | `event_as_addr`, `kernel_as_addr` (C91) |
| 73 | printsiginfo.c:120-122 | the value of a signal queued with SI_TKILL is not shown | `tkill_value` (C91) |
| 74 | socketutils.c:543-550 | details of a socket are never brought up to date: one that is connected after it has been shown stays without its peer | `connect_not_shown` (C92) |
| 75 | socketutils.c:309-313 | abstract names are cut at the next NUL byte, so that different names are shown alike (sockaddr.c shows all bytes) | `abstract_cut` (C92) |
| 76 | netlink.c:107-108 with socketutils.c:536 | without details `NETLINK:[INODE]` is taken for a family with the number of the inode | `inode_as_family` (C93) |
| 77 | dyxlat.c:54-55 | a name is compared with one more character than is stored: with the NUL byte counted, as in names of families, the byte behind the copy is read | `family_twice` (C93) |
| 78 | linux/x86_64/get_scno.c | without PTRACE_GET_SYSCALL_INFO a 64-bit program that uses the 32-bit entry is shown with calls of the 64-bit table | `Regs.int80_as_64` (C94) |
| 79 | linux/x86_64/get_scno.c | the exception for call number -1 compares 64 bits; the number is usually loaded as 32 bits, and the program is announced to run in x32 mode | `Regs.minus_one_as_x32` (C94) |
| 80 | syscall.c, get_syscall_args | arguments of 32-bit calls reported by PTRACE_GET_SYSCALL_INFO are not cut to 32 bits, those from registers are | `Regs.high_half_kept` (C94) |
| 81 | strace.c, init | `-f --output-separately -o FILE` writes one file: `output_separately` is overwritten with `followfork_short >= 2` | `Opt.separately_lost` (C97) |
| 82 | strace.c, printleader | with -r and -ff the difference shown is since the last line in any of the files, not in this one: the time is one static variable | `Lead.rel_separate_wrong` (C99) |
| 83 | strace.c, printleader | with -r and -z (or other status filters) the difference shown is since a line that may not have been published | `Lead.rel_dropped_wrong` (C99) |
| 84 | unwind.c, unwind_tcb_capture | `strace -k -z` ends with "bug: unprinted entries in queue" when a program fails to execve twice (execvp does): the stack of a call that is not published stays in the queue | `Unwind.stacks_fatal` (C100) |
| 85 | unwind.c, unwind_tcb_print | with -k and -z the stack of an unpublished execve follows the next published line | `Unwind.stacks_stale` (C100) |
| 86 | strace.c, print_event_exit | with -k the stack of exit_group is printed after `+++ exited with ... +++` | `Unwind.stacks_exit_late` (C100) |
| 87 | unwind-libdw.c, frame_callback | a stack of exactly as many frames as the limit is said to have too many | `Unwind.limit_exact` (C101) |
| 88 | unwind.c, sprint_call_or_error | a function with an empty name is shown as `bin(+0x0)` when captured and as `bin()` otherwise | `Unwind.unnamed_differs` (C100) |
| 89 | strace.c, is_uid_gid_pair | `-u 5:6:junk` is accepted as 5:6, whatever follows the second colon | `Cred.pair_junk` (C103) |
| 90 | strace.c, exec_or_die | with -u and --seccomp-bpf the filter is installed before strace's own setreuid, getpid, kill: if one of them is traced (e.g. `-e trace=%creds`), it fails with ENOSYS for want of a tracer and the program is not run; with getpid, SIGSTOP goes to a process group of the wrong number | `Cred.seccomp_setreuid`, `Cred.seccomp_stop` (C103) |
| 91 | util.c, printfd_pid_with_finfo | for a descriptor of another process (pidfd_getfd, kcmp) the protocol of a socket and the number of a pseudo-terminal are looked up with the *caller's* own descriptor of the same number, so `<UDP:[20]>` is shown for a UNIX socket | `Deco.other_socket`, `Deco.other_tty` (C105) |
| 92 | util.c, printdev | devices are recognised by stat of the path as strace sees it: a deleted file, or one of another mount namespace, is shown as a device if a device has its name | `Deco.by_name` (C105) |
| 93 | kvm.c, vcpu_get_info | vCPUs of different virtual machines of one process have the same name in /proc, so the exit reason of another machine is shown | `Kvm.two_machines` (C106) |
| 94 | kvm.c, vcpu_get_info | after mappings have changed only the first vCPU looked up is checked again: `MMAP_CACHE_REBUILD_READY` is taken for the record being current although another lookup, or a stack trace, renewed the cache; a moved kvm_run is read at its old address | `Kvm.moved_other`, `Kvm.moved_little` (C106) |
| 95 | kvm.c, vcpu_get_info | records go by descriptor number and are not dropped by close or dup2, nor when another thread creates a vCPU under that number | `Kvm.number_reused` (C106) |
| 96 | strace.c, startup_tcb | when strace attaches to a tracee outside of any call, `startup_tcb` has `get_scno` put the description of an unknown call in the slot; in the first call after that what the decoder keeps is refused, and it gets the address of the description in its place: recvmmsg takes it for its own structure, accept shows a part of an address for the length; what was allocated is never released | `Priv.attached_outside`, `Priv.outside_always` (C107) |
| 97 | ipc_semctl.c, semctl | semctl by way of ipc with a version other than 0: the version is in the slot, the address that semctl keeps is refused, and on exiting it takes the version for the address of the structure | `Priv.version_for_address` (C107) |
| 98 | bpf_filter.c, print_bpf_filter_code | bits 8-15 of the code of a BPF_LD, BPF_LDX, BPF_ALU or BPF_JMP instruction are not shown, so that a program the kernel rejects for them looks like a valid one | `Bpf.upper_lost` (C108) |
| 99 | ptrace_syscall_info.c, print_ptrace_syscall_info | `flags` is shown if more than its offset was transferred, not if it was transferred as a whole: with three bytes half of it is shown | `Psi.half_of_flags` (C109) |
| 100 | ptrace_syscall_info.c, print_psi_seccomp | `reserved2` is not shown even if it is not zero, unlike `reserved` | `Psi.second_reserved` (C109) |
| 101 | src/net.c, `print_icmp_filter` | an ICMP filter of 1 to 3 bytes (the kernel allows it) is shown as if the bytes not given were all ones | `Sockopt.short_filter` (C111) |
| 102 | src/net.c, `print_setsockopt` | with a negative length, which the kernel rejects unseen, the memory at the address is shown as a string | `Sockopt.negative_length` (C111) |
| 103 | src/net.c, `print_getsockopt` | of a netlink option 4 bytes are shown even if the returned length is less | `Sockopt.netlink_past_end` (C111) |
| 104 | fsconfig.c, `fsconfig` | With FSCONFIG_SET_PATH the path is printed before its directory descriptor, so its SELinux context is looked up in the current directory. | `Secon.fsconfig_directory` (C112) |
| 105 | link.c, `symlinkat` | The target of a symbolic link, which the kernel does not look up, is shown with the SELinux context of the file of that name in the current directory. | `Secon.symlink_target` (C112) |
| 106 | src/tee.c, `tee_open_session`, `tee_invoke`, `tee_suppl_recv`, `tee_suppl_send` | if the call succeeds but the argument cannot be fetched again on exiting, the decoder returns without closing the structure it opened on entering: the line has an open brace | `Gram.teeOpen_wf_iff_partial` (C113) |
| 107 | src/kd_mpers_ioctl.c, `kd_unimap` | for GIO_UNIMAP with a structure that cannot be read on exiting the address is printed right after the number shown for entry_ct, as in `{entry_ct=40x7ffe...}` | `Gram.kdUnimap_wf_iff_partial` (C113) |
| 108 | src/sg_io_v3.c and src/sg_io_v4.c, `decode_response` | if interface_id (guard) is another one on exiting, its new value is shown as that of flags, dxferp or usr_ptr, as in `flags=0 => interface_id=81`; if the direction has become both ways, `=> dxferp=` may follow flags | `Gram.sgIoV3_wf_iff_partial`, `Gram.sgIoV4_wf_iff_partial` (C113) |
| 109 | ioctl.c, `hiddev_decode_number` | HIDIOCGNAME(len) is shown as HIDIOCSFEATURE(len), which is another request (it should be written for both directions) | `Ioc.hid_name` (C115) |
| 110 | ioctl.c, `ioctl_decode_command_number` | SPI_IOC_MESSAGE(n) is shown with the size in bytes in place of the number of transfers: SPI_IOC_MESSAGE(1) as SPI_IOC_MESSAGE(32) | `Ioc.spi_message` (C115) |
| 111 | ioctl.c, `ioctl_decode_command_number` | MIXER_WRITE(n) is a request of both directions, but is shown for requests of type 'M' that write only, such as MEMERASE; a real MIXER_WRITE(n) is not recognised. MIXER_READ is shown for any size | `Ioc.mixer_write` (C115) |
| 112 | ioctl.c, `evdev_decode_number` | EVIOCGABS and EVIOCSABS are shown for requests of any size | `Ioc.abs_size` (C115) |
| 113 | rtnl_link.c, `decode_ifla_hwaddr` | the length of a link's address is looked up with `ifi_family` in the table of device types (`ifi_type` is meant): the addresses of members of a bridge (AF_BRIDGE = ARPHRD_ARCNET) are cut to one byte, those of InfiniBand devices to 7 | `Hw.bridge_cut`, `Hw.infiniband_cut` (C116) |
| 114 | print_mac.c, `sprint_mac_addr` | for a size of 0 the static buffer is returned unchanged: an address of no bytes (a PPP device, `mr_alen` 0) is shown as the address shown last | `Hw.stale_shown` (C116) |
| 115 | netlink.c, `decode_nlmsgerr` | the attributes of an extended acknowledgement are looked for right after the quoted request, but the kernel aligns them to 4 bytes: for a request of 17 bytes (RTM_GETLINK with `struct rtgenmsg`) padding is decoded as an attribute header | `Nlerr.padding_not_skipped` (C117) |
| 116 | netlink.c, `decode_payload` | an NLMSG_ERROR message that quotes an NLMSG_ERROR message and so on is decoded by recursion, 20 bytes for each level and no limit: a tracee that sends some hundred thousand bytes of such headers can make strace exhaust its stack | `Nlerr.depth_unbounded` (C117) |
| 117 | fcntl.c:162-164, `print_fcntl` | F_GETOWN chooses the format of its result on entering from `tcp->u_rval`, which then is the result of the previous call; with `--decode-pids` a process is taken for a group of processes after a failed call, and a group for a process otherwise | `Fcntl.history_counterexample`, `Fcntl.own_iff` (C118) |
| 118 | util.c:1196-1198, 1468-1486, `string_quote`, `printstr_ex` | A value of which the byte at the -s limit is NUL, though it is longer, is shown without that byte and without "...", as if it were complete (attributes, keys, netlink strings), unless it is shown in hexadecimal | `Quote.trail_counterexample` (C119) |
| 119 | ipc_msg.c:135-137, print_msgbuf.c:23-36, `msgrcv` | Shows as many bytes as there was room for, not as many as have been received: memory the call has not written is shown as part of the message | `Filled.leaks`, `Filled.msgrcv_leaks` (C120) |
| 120 | keyctl.c:436-447, `keyctl_pkey_op` | Shows as many bytes of the output as there was room for, not as many as the result says | `Filled.leaks` (C120) |
| 121 | keyctl.c:105-126, `keyctl_read_key` | If the result is more than the room, the kernel writes nothing (or a part), and all of the room is shown as the key's | `Filled.leaks` (C120) |
| 122 | uid.c:178-194, `getgroups` | getgroups(0, p) asks for the number and writes nothing; as many groups as the result says are shown from p | `Filled.leaks` (C120) |
| 123 | io.c:16-34 and its like; epoll.c:84-88 | With an injected result that is more than the size, memory beyond the end of the buffer is shown as read (net.c, keyctl.c and listmount.c limit it) | `Filled.injected_counterexample` (C120) |
| 124 | signal.c:543-558, `struct new_sigaction` | sa_mask has NSIG / sizeof(long) = 8 words, 64 bytes instead of 8: 88 bytes are read where the kernel reads 32; an action near the end of a mapping is shown as an address | `Inout.sigaction_counterexample` (C121) |
| 125 | time.c:341, `do_clock_nanosleep` | The rest of the time is shown only if the flags are 0; the kernel writes it unless TIMER_ABSTIME is set (also with garbage in the upper half of the argument) | `Inout.clock_nanosleep_counterexample` (C121) |
| 126 | time.c:197-227, 365-376, `adjtimex`, `clock_adjtime` | What was asked for (modes and values) is not shown but as the call leaves it; after a failure not at all | `Inout.adjtimex_input_lost` (C121) |
| 127 | wait.c:179-180, `waitid` | With WNOHANG and no child the usage is shown though it has not been written | `Inout.waitid_counterexample` (C121) |
| 128 | wait.c:170-171, printsiginfo.c:155-158, `waitid` | si_utime and si_stime are shown, which waitid does not write | `Inout.waitid_times` (C121) |
| 129 | nsfs.c, nsfs_ioctl | NS_GET_NSTYPE returns RVAL_STR also when the call has failed, without a text: the line of the failed call ends with the explanation of an earlier call of the thread, or with what another thread has put into the same buffer since | `Expl.failed_counterexample`, `Expl.other_thread_counterexample` (C122) |
| 130 | prctl.c, prctl | PR_GET_SPECULATION_CTRL of a misfeature other than the three known ones returns RVAL_STR without a text: its result is shown with the explanation of an earlier one | `Expl.speculation_counterexample` (C122) |
| 131 | prctl.c, prctl | PR_GET_SPECULATION_CTRL and PR_SET_SPECULATION_CTRL do not show the arguments that have to be zero, so that a call refused for them has the same line as one that is not | `Prctl.determines_counterexample`, `Prctl.determined_iff` (C123) |
| 132 | prctl.c, prctl | PR_SET_MDWE shows 32 bits of its flags, of which the kernel looks at 64; so does PR_SET_PTRACER of the process, which the kernel compares with 0 as a long number | `Prctl.mdwe_counterexample`, `Prctl.determined_iff` (C123) |
| 133 | prctl.c, arch_prctl | ARCH_GET_UNTAG_MASK, ARCH_GET_MAX_TAG_BITS and ARCH_SHSTK_STATUS are known by name, but the number that the kernel has written is not shown | `Prctl.arch_filled_counterexample` (C123) |
| 134 | ptrace.c, decode_ptrace_entering | the signal of PTRACE_CONT, PTRACE_DETACH, PTRACE_SYSCALL and the like is printed as an int, while the kernel compares all 64 bits of `data`: a call that fails with EIO because of a high bit is shown like a valid one | `Ops.signal_cut` (C124) |
| 135 | keyctl.c, keyctl_dh_compute | the parameters of the key derivation function, which the kernel reads, are read by strace when the call has ended: if the memory has changed in the meantime, what is shown is not what the kernel got | `Ops.dh_late` (C124) |
| 136 | count.c, `call_summary_pers` | the widths of the columns `longest` and `shortest` are computed from the seconds only; a time that rounds up to 10, 100, ... seconds needs one more character and moves the rest of its line | `Table.longest_moved`, `Table.carry_too_long` (C125) |
| 137 | count.c, `call_summary_pers` | `(uint64_t) (ts_float(...) * 1e6)` truncates: an average of 249 microseconds is shown as 248 | `Table.average_low` (C125) |
| 138 | signal.c, decode_new_sigaction | `struct new_sigaction` has an array of NSIG / sizeof(long) = 8 words for the mask, where the kernel has one of 8 bytes: the decoder reads 88 bytes (76 in 32-bit programs) instead of 32 (20), and an action in the last 87 bytes before unreadable memory is shown as an address although the call succeeds | `Sigc.action_not_shown`, `Sigc.action_shown_iff` (C126) |
| 139 | util.c, parse_ts | the time is cut off after multiplying, not rounded: "4.35s" gives 4.349999999 s | `Tsf.not_exact` (C127) |
| 140 | util.c, parse_ts | `1e30` and `-nan` (which is not less than 0) are accepted and converted to `time_t` and `uint64_t`, which is undefined behaviour | `Tsf.not_defined`, `Tsf.undefined_form` (C127) |
| 141 | strace.c:3679-3687, next_event | With -f and -o '\|command' strace ends as soon as it has no records: a child whose parent has ended before the child's first stop was reported is not traced (the comment there admits it) | `Fork.pipe_counterexample` (C128) |
| 142 | strace.c:3525-3532, startup_tcb | Where PTRACE_SEIZE does not work, the options are set at the first stop after PTRACE_ATTACH: a child made before it is not followed | `Fork.attach_counterexample` (C128) |
| 143 | bpf.c, decode_BPF_PROG_DETACH | the descriptor of the program (`attach_bpf_fd`, bytes 4 to 7), by which the kernel finds what to detach, is not shown: bpf_attr.h calls it `dummy` | `Battr.detach_loses` (C129) |
| 144 | bpf.c, decode_BPF_PROG_LOAD | bytes 116 to 119 (`pad` in bpf_attr.h, `core_relo_cnt` of the kernel since 5.17) are neither shown as a field nor as extra data | `Battr.load_loses` (C129) |
| 145 | bpf.c, decode_BPF_LINK_UPDATE | `old_prog_fd` is shown only with BPF_F_REPLACE; without that flag the kernel refuses a call in which it is not 0, and nothing shows why | `Battr.update_loses` (C129) |
| 146 | bpf.c, decode_BPF_RAW_TRACEPOINT_OPEN | a cookie of which not all 8 bytes are given is not shown, although the kernel takes it with zeros for the rest, as strace does for every other field | `Battr.cookie_loses` (C129) |
| 147 | bpf.c, BPF_MAP_CREATE and BPF_PROG_LOAD | a name that the end of the attributes ends is shown without its last byte and with dots, although it is complete for the kernel | `Battr.name_loses` (C129) |
| 148 | bpf.c, decode_BPF_PROG_TEST_RUN and decode_BPF_PROG_QUERY | the results of a test run (`retval`, `duration`, `data_size_out`, `ctx_size_out`) and the `attach_flags` that a query returns are shown as they are before the call | `Battr.run_unanswered`, `Battr.query_unanswered` (C129) |
| 149 | src/mem.c, `mmap_pgoff` | The offset in pages is multiplied in 64 bits: on an architecture whose 64-bit programs give it in pages, an offset of 2^52 pages of 4096 bytes is shown as 0, as is none. | `Memc.offset_wraps` (C130) |
| 150 | src/util.c, `sequence_truncation_needed` | The number of elements is an `unsigned int`: for mincore of 2^32 pages (2^44 bytes) the limit of the number of elements is not applied and all of them are printed. | `Memc.mincore_limit_lost` (C130) |
| 151 | src/aio.c, `print_iocb` | For fsync, fdsync and other operations `aio_flags` and `aio_resfd` are not shown, although the kernel tells the descriptor of the end of any request: requests with and without it are shown alike. | `Aio.fsync_hides` (C131) |
| 152 | src/aio.c, `SYS_FUNC(io_cancel)` | The kernel finds the request to cancel by its address; strace shows the beginning of the structure instead, so that requests with the same contents at different addresses are shown alike. | `Aio.cancel_hides` (C131) |
| 153 | src/net.c, `SYS_FUNC(socket)` | The protocol of AF_IRDA is looked up in the table of AF_CAN (`can_protocols` in place of `irda_protocols`, which is included and not used): IRDAPROTO_ULTRA is shown as CAN_RAW, and IRDAPROTO_UNITDATA as an unknown number. | `Net.irda_wrong` (C133) |
| 154 | src/net.c, `SYS_FUNC(socket)` | The protocol is shown by the whole register of the domain, of which the kernel takes 32 bits: with other bits set the domain is still shown by its name, the protocol as a number. | `Net.domain_high` (C133) |
| 155 | io_uring.c, io_uring_setup | With `IORING_SETUP_CQSIZE` the kernel takes `cq_entries` from the program, but the decoder shows that member only when the call has succeeded, as the kernel leaves it; what the program asked for is not shown, and after a failure (such as EINVAL because of that very number) nothing of it is. | `Ring.completions_hidden` (C134) |
| 156 | io_uring.c, print_io_uring_buf_status | `buf_group` is an input of `IORING_REGISTER_PBUF_STATUS` (the header says so), but the structure is shown only when the call has succeeded; after a failure, such as ENOENT because there is no such group, the group is not shown. | `Rreg.group_hidden` (C135) |

Smaller observations without a theorem: `trie_create_data_block`/nodes are allocated eight times larger than needed;
`MASK64(64)` would be undefined; the delay index 65535 equals the "not allocated" mark (leads only to a reported error);
options that use `strtoll` accept leading blanks and a plus sign (C01 states this exactly).

## Status of each property

Theorem names are relative to the namespace `Strace`.

| Id | Property | Status | Theorems | Remarks |
|---|---|---|---|---|
| C01 | Numeric option arguments are parsed exactly | proved | `StringToUint.isDigit_iff`, `StringToUint.isSpace_iff`, `StringToUint.stringToUintEx_iff`, `StringToUint.stringToUintEx_none_iff` | exact grammar, both directions; strtoll is a libc contract written as a function |
| C02 | A number set behaves as a mathematical set under every history | proved | `NumberSet.numberSet_refines`, `NumberSet.mem_add_of_cleared`, `NumberSet.mem_invert`, `NumberSet.isEmptySet_sound` | refinement to Nat → Bool for every history |
| C03 | The 'everything is selected' shortcut is sound | partial | `NumberSet.isComplete_sound_partial`, `NumberSet.isComplete_inverted_partial`, `NumberSet.isComplete_unsound`, `NumberSet.isComplete_incomplete` | the full claim is false of the code (witness isComplete_unsound); proved exact for non-complemented sets |
| C04 | Filter expressions denote the documented set | proved | `Filter.qualifyTokens_meaning`, `Filter.qualifyTokens_double_bang`, `Filter.qualifyTokens_overwrites` | for every decoder, previous content and string |
| C05 | Syscall selection resolves numbers, names and personality suffixes correctly | proved | `Filter.qualifySyscallTokens_meaning` | for every table/designator/shuffle/regex configuration |
| C06 | The when= expression is parsed as documented | proved | `Inject.parseWhen_iff`, `Inject.parseWhen_bounds` | iff against the documented grammar |
| C07 | Fault injection hits exactly the requested invocations | proved | `Inject.tamper_due_iff`, `Inject.when_schedule` | every rule table, every history of invocations of any number of tracees |
| C08 | Injection decisions are independent between syscalls of a tracee | partial | `Inject.injection_not_independent`, `Inject.plain_call_misreported`, `Inject.injection_independent_partial`, `Inject.injected_error_reported`, `Inject.injected_retval_reported`, `Inject.injected_subst_reported`, `Inject.plain_reported`, `Inject.not_injected_reported` | false of the code: TCB_TAMPERED_NO_FAIL is never cleared; proved for histories without syscall= substitution |
| C09 | Quoted strings can be decoded back to the exact bytes | proved | `Quote.quote_roundtrip`, `Quote.quote_roundtrip_comment`, `Quote.shown_all`, `Quote.shown_term`, `Quote.quote_injective`, `Quote.quote_nonAsciiChars_ambiguous` | for every byte string, style and escape set; the C reading of --strings-in-hex=non-ascii-chars is ambiguous (witness), the fixed two-digit reading is proved |
| C10 | Quoting never overruns its output buffer | partial | `Quote.quote_length`, `Quote.printQuoted_fits`, `Quote.printQuoted_fits_comment_partial`, `Quote.printstr_fits`, `Quote.quoteAlloc_wraps` | comment style needs size < 2^30-2 (witness of the 32-bit wrap beyond) |
| C11 | A string printed without an ellipsis is complete | proved | `Quote.printstr_ellipsis`, `Quote.printstr_bounded_ellipsis`, `Quote.printstrn_ellipsis`, `Quote.printpath_ellipsis` | every string, limit and previous buffer content |
| C12 | A flag word is printed as names that OR to the value | proved | `Xlat.printflags_or`, `Xlat.printflags_zero`, `Xlat.printflags_raw`, `Xlat.sprintflags_or`, `Xlat.sprintflags_zero` | any number of tables of any size; the names are the greedy maximal decomposition, names and residual OR to the word and are disjoint |
| C13 | Constant lookup does not depend on how the table is stored | proved | `Xlat.xlookup_eq`, `Xlat.printxvals_eq`, `Xlat.searchEqOrLess_floor`, `Xlat.xrlookup_eq`, `Xlat.xrlookup_xlookup` | for every table meeting its storage contract |
| C14 | Time arithmetic is exact and normalised | partial | `Time.tsCmp_spec`, `Time.tsNz_spec`, `Time.tsAdd_spec`, `Time.tsSub_spec`, `Time.tsSub_clock`, `Time.tsDiv_spec_partial`, `Time.tsMin_spec`, `Time.tsMax_spec`, `Time.tsDiv_wraps` | signed overflow is an outcome of the model and excluded by the stated ranges; division is rounding to nearest while the intermediate product fits 64 bits (tsDiv_wraps shows the limit is real) |
| C15 | The in-kernel syscall filter selects exactly the traced syscalls | proved | `Seccomp.installed_selects`, `Seccomp.installed_selects_one`, `Seccomp.linear_selects`, `Seccomp.binary_selects`, `Seccomp.generators_agree`, `Seccomp.traced_iff` | the classic BPF machine is modelled from the kernel documentation; tables satisfy Sane (flag is one bit above all numbers) |
| C16 | Generated seccomp programs are well formed | proved | `Seccomp.installed_wellformed`, `Seccomp.kernelOk_returns`, `Seccomp.generators_fit` | jump targets, last instruction, length limit; also the static buffers are never overrun |
| C17 | Syscall entry and exit handling alternates under seccomp filtering | partial | `Ev.alternation_partial`, `Ev.exec_switch_op`, `Ev.exec_switch_missed`, `Ev.beyond_table_missed`, `Ev.delayed_wrong_personality` | proved for every activity of a tracee, both kernel orders; missing: exec by a non-leader thread, a call beyond the table with an event inside, a delay ending under another personality - each of these is shown to go wrong in the code |
| C18 | The trie is a total map | partial | `Trie.trie_is_map`, `Trie.iterate_spec_partial`, `Trie.iterate_complete_partial`, `Trie.iterate_endless`, `Trie.iterate_wrong_count` | iteration with start beyond the key range, or up to 2^64-1 with 64-bit keys, is excluded: there the code miscounts or never ends (witnesses) |
| C19 | Reading tracee memory returns the tracee's bytes | partial | `UCopy.umoven_spec_partial`, `UCopy.read_true_partial`, `UCopy.reach_inv`, `UCopy.umoven_fallback`, `UCopy.umoven_max_len` | for every cache state reachable by reads, resumes and pokes made before the first read of a stop; the kernel may fail any call; requests below 2^32-1 bytes (at that size a failure is reported as success: umoven_max_len) |
| C20 | Reading a tracee string stops at the first NUL | partial | `UCopy.umovestr_spec_partial`, `UCopy.umovestr_peek_count`, `UCopy.umovestr_wrong_count`, `UCopy.umovestr_beyond_limit` | full with process_vm_readv or word-aligned requests; the word-by-word fallback returns wrong counts otherwise (characterised exactly, witnesses) |
| C21 | Poking memory changes only the requested bytes | proved | `UCopy.upoken_spec`, `UCopy.upoken_fallback` | both the vectored and the word-by-word path; requests below 2^32-1 bytes |
| C22 | A tracee is found by its pid exactly when it is being traced | proved | `Tcb.lookup_exact`, `Tcb.one_record`, `Tcb.alloc_fresh`, `Tcb.pointer_stable`, `Attach.lookup_after_startup` | for every history of tracees seen, updated, gone and switched by exec, with any stale lookup cache; also after startup with any list of -p, repeated pids included |
| C23 | The count of traced processes is exact | proved | `Tcb.nprocs_exact` | counter equals both the abstract number of tracees and the number of used records |
| C24 | Lines of different tracees are never mixed | partial | `Out.shared_log_lines`, `Out.shared_log_content`, `Out.shared_log_leaders`, `Out.nothing_elsewhere`, `Out.detach_glues`, `Out.failed_ptrace_glues` | full for a shared log without a status filter (every interleaving, exec by threads, detaching, ptrace failures); with a status filter lines can be glued (two witnesses), see C51 for what holds then |
| C25 | Interrupted calls are resumed exactly once | partial | `Out.calls_resumed_once`, `Out.uninterrupted_one_line_partial`, `Out.exec_splits_next`, `Out.note_tears` | resumed exactly once: full for a shared log without status filter; 'not interrupted -> one line' holds unless a thread's exec was filtered out before (witness); with -ff or a status filter a note inside a call tears it (witness) |
| C26 | Wait statuses are classified completely | proved | `Ev.classify_spec`, `Ev.classify_death` | every stop of ptrace(2)/wait(2), seized and attached tracees |
| C27 | Signals reach the tracee unchanged | proved | `Ev.signals_faithful` | for every sequence of stops of a tracee with no injected signal and no delay |
| C28 | strace exits as its child did | partial | `Ev.exit_code_exited_partial`, `Ev.exit_code_killed_partial`, `Ev.exit_code_others`, `Ev.exit_code_interrupted`, `Ev.exit_code_pid0` | for every history whose events carry real pids; exit_code_pid0 shows what an event attributed to a freed record (finding under C30) does |
| C29 | exec from a thread transfers the identity | proved | `Tcb.exec_switch` | the table; the output side is under C24/C25 |
| C30 | Pending events are never lost or attributed to a freed tracee | partial | `Ev.queue_exact`, `Ev.taken_all`, `Ev.dispatched_to_tracee_partial`, `Ev.extra_to_freed` | events are dequeued exactly once in order with their own data (full); they go to a live tracee unless an earlier event of the same batch freed the record, which the code allows (witness) |
| C31 | Detaching leaves no trace on the tracee | partial | `Detach.seized_detach`, `Detach.unseized_detach`, `Detach.unseized_death`, `Detach.stopped_detach_partial`, `Detach.absent_detach`, `Detach.cleanup_each`, `Detach.signal_lost`, `Detach.waits_for_stopped` | Proved for running tracees, for those whose attach SIGSTOP is still due, and for all tracees at once in cleanup. Fails for a tracee stopped to deliver a signal when strace is interrupted: the signal is lost (signal_lost); and without PTRACE_SEIZE strace may wait for a stopped tracee forever (waits_for_stopped). |
| C32 | Netlink message decoding stays in bounds and terminates | proved | `Walk.netlink_walk`, `Walk.netlink_all` | Termination, bounds and order for every buffer; well-formed buffers are shown exactly. Family-specific payload decoders are not modelled. |
| C33 | Netlink attribute decoding stays in bounds and terminates | proved | `Walk.nlattr_walk`, `Walk.nlattr_all`, `Walk.decoder_choice` | As C32; which decoder gets a payload is proved, the decoders themselves are not modelled. |
| C34 | Ancillary data decoding stays in bounds and terminates | partial | `Walk.control_walk_partial`, `Walk.control32_walk`, `Walk.control_all`, `Walk.control_endless` | Full for 32-bit tracees; for 64-bit ones provided no cmsg_len is within 7 of 2^64, where the code loops forever (control_endless). |
| C35 | Directory entry decoding stays in bounds and terminates | proved | `Walk.dents_walk`, `Walk.dents_summary`, `Walk.chained_inside`, `Walk.dents_all` | Every buffer content; separators and names are not modelled. |
| C36 | Array printing covers exactly the readable prefix | partial | `Show.print_array_partial`, `Show.print_array_overflow`, `Show.print_array_empty`, `Show.reason_unique`, `Show.long_array_unlimited`, `Arr.array_shown`, `Arr.array_not` | Proved for arrays of fewer than 2^32 elements; beyond that the limit does not hold (long_array_unlimited). Elements printed with a state of their own and indices in front of elements: Arr. |
| C37 | Vector I/O output is limited to the transferred bytes | partial | `Show.iov_shares`, `Show.iov_unlimited`, `Show.dump_shares_partial`, `Show.dump_stops_at_empty` | The printed vector is proved in full; the dump stops at an empty buffer (dump_stops_at_empty), so it is proved for vectors without empty buffers. |
| C38 | Hex dumps reproduce the data | proved | `Show.dump_whole`, `Show.dump_cut`, `Show.read_back`, `Show.lines_bytes`, `Show.dump_round_trip`, `Show.ilog2_spec`, `Show.same_width`, `Show.line_length`, `Show.dump_overflow` |  |
| C39 | Signal sets are printed faithfully | partial | `Bits.sprintsigmask_exact`, `Bits.mem_sigList`, `Bits.sprintsigmask_fits_partial`, `Bits.sprintsigmask_verbose_overflows` | exactness proved for every mask and style; the buffer bound is false in verbose style (witness), proved for the others |
| C40 | Bit search finds the next set bit | proved | `Bits.nextSetBit_le`, `Bits.nextSetBit_be`, `Bits.scan_spec` | both byte orders, every array, start and size |
| C41 | The select result text is well formed and bounded | partial | `Bits.selectText_fits`, `Bits.selectText_wellformed_partial`, `Bits.selectText_malformed` | the bound holds for every input; well-formedness is false of the code when a set has no ready descriptor (witness), proved otherwise |
| C42 | Call statistics equal the history | proved | `Count.table_is_history`, `Count.totals_are_history` | Every history of fewer than 2^64 calls (2^33 for the averages and totals) whose times are below 2^61 s each and 2^62 s in total. The printed decimals (floating point) are not modelled. |
| C43 | Statistics are sorted by the chosen column | partial | `Count.larger_first_partial`, `Count.names_in_order`, `Count.comparison_consistent`, `Count.sorted_table_partial`, `Count.one_row_each`, `Count.sort_names`, `Count.calls_misordered` | Times and names for all values; numbers of calls and errors below 2^32 only, since the comparison cuts them to 32 bits (calls_misordered). qsort is assumed to return a sorted permutation for a consistent comparison. |
| C44 | A delayed tracee is always woken up | partial | `Delay.never_early`, `Delay.timer_armed_partial`, `Delay.woken_partial`, `Delay.some3_valid`, `Delay.late_by_gap`, `Delay.discarded_notification`, `Delay.lost_flag` | never_early is unconditional. Being woken is proved when the kernel keeps a pending timer notification and no tracee ends in a delay while it is pending; the deadline is missed by at most the time between the two clock readings. Witnesses show that each condition is needed. |
| C45 | Stack trace address lookup finds the mapping | proved | `Misc.maps_ascending`, `Misc.maps_all`, `Misc.maps_lookup`, `Misc.entry_fields` |  |
| C46 | Environment changes apply as documented | proved | `Misc.env_values`, `Misc.env_others` |  |
| C47 | Kernel versions are compared correctly | partial | `Misc.release_order_partial`, `Misc.checks_right`, `Misc.release_misordered` | Exact for components up to 255; the comparisons strace actually makes are right for all releases (checks_right); a component above 255 is misordered (release_misordered). |
| C48 | Intrusive lists behave as sequences | proved | `Misc.list_step`, `Misc.list_steps`, `Misc.lists_refine`, `Misc.foreach_safe_remove`, `Misc.foreach_ring` | Every history of operations allowed by the comments in list.h, any number of lists and items. |
| C49 | Growing arrays never overflow silently | proved | `Tcb.realloc_exact`, `Tcb.grow_strict`, `Tcb.grow_succeeds` | size arithmetic in size_t, for any HALF_SIZE_T |
| C50 | Injected values keep their identity | proved | `Misc.rules_kept`, `Misc.rules_taken`, `Misc.too_many_reported` |  |
| C51 | Only syscalls with a selected status are shown | partial | `Out.status_filter_partial`, `Out.detach_glues`, `Out.note_tears`, `Out.killed_lost`, `Out.exec_halved`, `Out.failed_ptrace_glues` | exact log for every history without ptrace failure, thread exec, note inside a shown call, or selected detach inside a shown call; each exclusion is shown to break the property in the code |
| C52 | The syscall limit counts printed syscalls | proved | `Ev.limit_exact`, `Ev.limit_none` |  |
| C53 | Syscall numbers are (un)shuffled consistently | partial | `Misc.involution_bijection`, `Misc.xor_involution`, `Misc.arm_bijection`, `Misc.arm_numbers`, `Misc.other_bijections`, `Misc.table_numbers`, `Misc.x32_bijection_partial`, `Misc.x32_clash` | All shuffles are injective on system call numbers except that of x32 at one value (x32_clash). |
| C54 | Pid translation between namespaces is right when it answers | partial | `Misc.translate_right_partial`, `Misc.answers_right_partial`, `Misc.tracee_ns_right_partial`, `Misc.deep_overrun` | For every content of the caches, every history of a changing system and every iteration order, when no process is in more than 32 nested namespaces as seen from /proc; the kernel allows 33, and then ids are read outside of an array (deep_overrun). The system does not change during one translation; kernels without NS_GET_PARENT are not modelled. |
| C55 | File mode and clock tick numbers are printed exactly | partial | `Time.ticksComment_exact_partial`, `Time.ticksDComment_exact_partial`, `Time.clockComment_100`, `Time.clockComment_1024_wrong`, `Time.ilog10_spec` | exact for tick rates that are powers of ten; false for others (witness 1024) |
| C56 | ioctl names are those of the command number | proved | `Misc.ioctl_names` | bsearch is taken by its contract: it returns some matching entry if there is one; the generated table is assumed sorted (ioctlsort is not modelled). |
| C57 | Quoted strings are printable ASCII | proved | `Quote.quote_printable`, `Quote.escape_chars_escaped` |  |
| C58 | -x and -xx choose hex exactly as documented | proved | `Quote.xx_all_hex`, `Quote.x_nonAscii` |  |
| C59 | Time constants mean what they say | proved | `Time.parseTs_int_iff`, `Time.timescaleSfx_eq` | integer forms; the floating-point form is not modelled |
| C60 | Calls beyond the syscall table are never filtered out by the kernel | partial | `Seccomp.beyond_table_traced_partial`, `Seccomp.beyond_table_let_through` | true of the first generator only; the code installs the shorter program and the second generator lets such calls through (witness) |
| C61 | Poked memory is what strace shows afterwards | partial | `UCopy.poke_then_read_partial`, `UCopy.poke_then_stale` | true when nothing was read since the stop; false otherwise because the page cache is not invalidated by pokes (witness) |
| C62 | An injected signal reaches the tracee | partial | `Ev.inject_signal_partial`, `Ev.delay_loses_signal` | delivered unless a delay is injected on entry of the same call; then the signal is lost (proved) |
| C63 | Summary columns are those asked for | proved | `Count.columns_given`, `Count.commas_exist`, `Count.columns_fit` |  |
| C64 | Poke rules keep their data | partial | `Misc.pokes_kept_partial`, `Misc.pokes_few`, `Misc.pokes_lost` | Full for up to eight rules, and for any number if realloc does not move the array; if it does, the lists of earlier rules lead to freed memory (pokes_lost). |
| C65 | Stack traces use the current mappings | partial | `Misc.maps_history_partial`, `Misc.maps_stale` | Every history of any number of tracees with fewer than 2^32 changes between two uses by the same tracee; after exactly 2^32 changes the old mappings are used (maps_stale). |
| C66 | Path and descriptor selection shows the calls that name the files asked for | partial | `Path.selected_paths`, `Path.selection_right_partial`, `Path.selection_sound`, `Path.rename_missed`, `Path.epoll_ctl_missed`, `Path.others_missed`, `Path.getcwd_spurious` | All rows of the x86_64 and i386 tables except eight calls. rename looks at the old name only (rename_missed); epoll_ctl, fanotify_mark, fsconfig, perf_event_open and close_range miss a descriptor; getcwd and an unknown socketcall may be shown without naming anything. Nothing else is ever shown wrongly (selection_sound). |
| C67 | Descriptor paths are those of the files | proved | `Path.fd_path_right` | Under the kernel's contract for /proc/PID/fd and lstat; a removed file that has another name equal to the old one with the mark appended is excluded (it cannot be told from a present one). |
| C68 | Names shown for signals and errors are accepted back | proved | `Cli.signal_text`, `Cli.signal_value`, `Cli.signal_reads_back`, `Cli.error_text`, `Cli.error_reads_back` | For the tables of all architectures in /repo (six distinct ones), every text and number. |
| C69 | -p attaches to exactly the processes listed | proved | `Cli.pid_list`, `Cli.words_exist`, `Cli.words_unique` | Attaching itself is not part of this property. |
| C70 | The program run is the one the shell would run | partial | `Cli.program_found`, `Cli.program_not_found`, `Cli.first_in_path_partial`, `Cli.trailing_colon` | program_found says exactly what is run, for every PATH; an empty entry at the very end of PATH is not searched (trailing_colon), otherwise this is the property (first_in_path_partial). |
| C71 | Poke data mean the bytes written down | partial | `Cli.poke_reads`, `Cli.poke_shape_partial`, `Cli.poke_loose` | Every well-formed text is read as spelt; everything accepted has the shape, but some texts that are not hexadecimal are accepted (poke_loose). |
| C72 | An injection expression means the set of calls and all of its tokens | proved | `Cli.inject_option`, `Cli.tokens_any_order`, `Cli.retval_text` | Values of when= as in C06, delays as in C59, poke data as in C71, the set as in C05. when= may be repeated, the last one counts (when_twice). |
| C73 | -e NAME=VALUE sets the option named, anything else is a trace set | proved | `Cli.option_of_text`, `Cli.option_unique` |  |
| C74 | The text after a call tells its outcome as the kernel had it | partial | `Result.says_unique`, `Result.result_shown`, `Result.read_regs`, `Result.read_info_partial`, `Result.info_never_fails`, `Result.call_shown_partial` | Full for results read from registers. With PTRACE_GET_SYSCALL_INFO the property fails for calls that cannot fail (info_never_fails); proved for all others. The libc texts of errors, paths and names after descriptors are parameters with the stated shapes. |
| C75 | The elapsed time shown is the time between the clock readings | proved | `Result.tOpt_spec`, `Result.elapsed_shown` |  |
| C76 | 64-bit arguments are shown as the program passed them | partial | `Args.args_shown_partial`, `Args.sh_fadvise`, `Args.sh_sync`, `Args.csky_fadvise` | missing: fadvise64_64 and sync_file_range on SH and fadvise64_64 on csky, where it is false (findings 46, 47); fadvise64_64 on s390 and sync_file_range on csky, where the kernel's convention is in doubt |
| C77 | A multiplexed call is shown as the call it stands for | partial | `Args.socket_shown`, `Args.ipc_shown_partial`, `Args.ipc_other`, `Args.direct_shown`, `Args.shmat_value`, `Args.semctl_version`, `Args.msgrcv_changed` | tracees with 4-byte words, not s390; missing: semctl commands shown on exit when the call number carries a version, and msgrcv of version 0 when its pair changes during the call, where it is false (findings 48, 49) |
| C78 | strace's own code is not shown | partial | `Hide.started_shown`, `Hide.started_injected`, `Hide.own_code_hidden_partial`, `Hide.program_seen`, `Hide.attached_seen`, `Hide.signal_shown`, `Hide.own_code_seen` | What is shown and tampered with is characterised for every history (started_shown, started_injected). The property fails after an exec call that does not pass the filters (own_code_seen, finding 50), and holds if the exec calls pass them; the part about the running program and about attached processes holds without condition. |
| C79 | -b execve detaches at the right program | proved | `Hide.detach_on_exec`, `Hide.reported_until_detach` | One thread. |
| C80 | The name shown for a task is the one it has | partial | `Hide.comm_shown_partial`, `Hide.real_is_last`, `Hide.comm_stale` | It fails for a name changed right after a reported call that failed (comm_stale, finding 51); proved for all other histories. |
| C81 | The bytes dumped are the bytes transferred | partial | `Show.Dumpio.dumped_partial`, `Show.Dumpio.nothing_dumped`, `Show.Dumpio.buffers_numbered`, `Show.Dumpio.vectors_numbered`, `Show.Dumpio.failed_sendmmsg`, `Show.Dumpio.recv_beyond_buffer` | Missing: vectors with empty buffers (finding 33), sendmmsg that fails (finding 52), results above the size of the buffer (finding 53), where it is false. |
| C82 | A word that packs several parts can be read back from what is shown | partial | `Pack.mmap_flags_partial`, `Pack.mmap_high_lost`, `Pack.memfd_flags`, `Pack.mount_flags_partial`, `Pack.mount_high_lost`, `Pack.futex_op`, `Pack.clone_flags`, `Pack.shmget_flags`, `Pack.get_flags_partial`, `Pack.get_flags_glued`, `Pack.sock_type`, `Pack.personality_arg`, `Pack.nla_type`, `Pack.nf_type`, `Pack.ipc_call`, `Pack.tone_arg`, `Pack.perf_hw`, `Pack.perf_cache`, `Pack.seccomp_k`, `Pack.oflag_partial`, `Pack.oflag_trailing_bar`, `Pack.cflag_partial`, `Pack.cflag_trailing_bar`, `Pack.bpf_operation_names`, `Pack.bpf_shown`, `Pack.bpf_code_partial`, `Pack.open_flags`, `Pack.quota_cmd`, `Pack.ioprio_arg`, `Pack.dev_number`, `Pack.vl_val`, `Pack.tagged_addr`, `Pack.riscv_ctrl` | False as stated for five of the words: mmap flags lose bits 32 and up in abbreviated style, mount flags do so after the old magic number, msgget/semget print unknown flags and the mode as one number, terminal flags end in a bar when no other flag is set, and most codes of classic filter statements lose their high byte. For these the value is proved outside the failing cases, and the failure is proved for all of them. The other eighteen are proved in full. |
| C83 | A wait status is shown as what it means, and can be read back | proved | `Pack.status_word`, `Pack.status_shown` |  |
| C84 | The result of poll lists the ready descriptors | proved | `Tracee.poll_shown`, `Tracee.poll_timeout`, `Tracee.poll_nothing` | For a call that did not fail; texts of flags and times are arbitrary. |
| C85 | Arguments and environment of execve | proved | `Tracee.vector_total`, `Tracee.argv_shown`, `Tracee.argc_shown`, `Tracee.envp_shown`, `Tracee.args_plain` | Strings are shown by their addresses (how a string is quoted is C01-C03). Fewer than 2^32 pointers: the counter is an unsigned int. |
| C86 | Lists of the device mapper stay within their data | partial | `Tracee.targetSpec_placed`, `Tracee.nameList_placed`, `Tracee.targetVersions_placed`, `Tracee.targetSpec_shown`, `Tracee.nameList_shown`, `Tracee.targetVersions_shown`, `Tracee.targetDeps_shown`, `Tracee.message_shown`, `Tracee.dm_abbreviated`, `Tracee.dm_marked`, `Tracee.dmString_shown`, `Tracee.last_event_hidden`, `Tracee.event_outside`, `Tracee.short_name_unread` | Everything but the event numbers of devices: they are bounded by the next offset and not by the data (event_outside), the one of the last device is never shown (last_event_hidden); a device whose structure with padding is not readable is not shown (short_name_unread). |
| C87 | Structures that carry their size are shown as the kernel sees them | partial | `Sized.openHow_shown`, `Sized.openHow_determines`, `Sized.mountAttr_shown`, `Sized.mountAttr_determines`, `Sized.xattrArgs_shown`, `Sized.not_shown`, `Sized.short_shown`, `Sized.mntIdReq_short`, `Sized.mntIdReq_shown`, `Sized.mntIdReq_determines_partial`, `Sized.mntIdReq_short_hidden`, `Sized.clone3_shown`, `Sized.clone3_text`, `Sized.clone3_exit_shown`, `Sized.schedSet_shown`, `Sized.schedSet_short`, `Sized.schedSet_policy_hidden`, `Sized.schedGet_shown_partial`, `Sized.schedGet_more_hidden`, `Sized.perf_shown`, `Sized.perf_new_size`, `Sized.perf_brief`, `Sized.perf_address`, `Sized.perf_flags_determined` | Full for openat2, mount_setattr, setxattrat, clone3 and perf_event_open. It fails for listmount and statmount requests of 25 to 31 bytes (mntIdReq_short_hidden), for sched_getattr when the kernel wrote more than 56 bytes (schedGet_more_hidden) and for the policy of sched_setattr with SCHED_FLAG_KEEP_PARAMS (schedSet_policy_hidden); proved otherwise. |
| C88 | Socket addresses are shown with the values of their fields | proved | `Sock.fields_shown`, `Sock.fields_determined`, `Sock.raw_shown`, `Sock.decode_safe`, `Sock.decode_not`, `Sock.unix_path`, `Sock.unix_abstract`, `Sock.unix_determined`, `Sock.strings_shown`, `Sock.ll_shown`, `Sock.ax25_call`, `Sock.ax25_digis`, `Sock.call_determines`, `Sock.call_comment`, `Sock.addr2str_eq`, `Sock.sockname_returned`, `Sock.sockname_failed`, `Sock.recvfrom_returned`, `Sock.msgName_returned`, `Sock.msgName_sent`, `Sock.returned_agree`, `Sock.ax25_hidden` | How a number is written as a name, an interface or an internet address is not part of the model. Digipeaters passed beyond the count in the address are not shown (ax25_hidden). |
| C89 | Addresses in control messages are read within the message | partial | `Sock.origDst_safe_partial`, `Sock.origDst_in6`, `Sock.origDst_beyond_in6`, `Sock.origDst_beyond_un`, `Sock.origDst_leak` | False of the code for AF_INET6 addresses of 25 to 27 bytes and for paths without a NUL; proved for the rest. |
| C90 | Sets passed as arrays of bits are shown with exactly their members | partial | `Sets.affinity_shown`, `Sets.affinity_addr`, `Sets.evdev_shown_partial`, `Sets.evdev_member`, `Sets.evdev_addr`, `Sets.evdev_hides`, `Sets.evdev_overread`, `Sets.nodemask_shown`, `Sets.icmp_shown`, `Sets.icmpOut_shown`, `Sets.icmp_addr` | Full for CPU sets, ICMP filters and node masks. Of event codes the largest one of a kind is never shown (evdev_hides: SW_MACHINE_COVER), and a set that is returned but not followed by readable bytes up to a whole word is shown as its address (evdev_overread). |
| C91 | Signal information is shown with the members the kernel has set | partial | `Sig.siginfo_shown_partial`, `Sig.siginfo_none`, `Sig.siginfo_other`, `Sig.siginfo_at`, `Sig.siginfo_at_addr`, `Sig.code_name_exact`, `Sig.code_name_abi`, `Sig.poll_as_source`, `Sig.event_as_addr`, `Sig.kernel_as_addr`, `Sig.tkill_value` | Proved for all codes of users, timers and files and for all codes specific to a signal. False of the code for POLL_* codes of other signals than SIGIO, for ptrace events, for faults with SI_KERNEL and for a value queued with SI_TKILL. |
| C92 | Details of a socket are those of that socket | partial | `Diag.details_safe`, `Diag.shown_own`, `Diag.shown_current`, `Diag.details_shown_partial`, `Diag.inode_of_link`, `Diag.file_no_inode`, `Diag.inode_only_link`, `Diag.connect_not_shown`, `Diag.abstract_cut` | What is shown is what the kernel said of the same inode, now or at an earlier request. False of the code: details are never brought up to date (connect_not_shown), abstract names are cut at a NUL byte (abstract_cut). |
| C93 | Netlink messages are decoded by the family of their socket | partial | `Diag.family_of_socket`, `Diag.families_table_partial`, `Diag.pair_set`, `Diag.inode_as_family`, `Diag.family_twice` | False of the code: if the kernel has no details of the socket its inode is taken for the family (inode_as_family), and a family listed twice makes strace read beyond a copied name (family_twice). |
| C94 | Calls are read as the kernel has them | partial | `Regs.calls_read_partial`, `Regs.overlay_reg`, `Regs.int80_as_64`, `Regs.minus_one_as_x32`, `Regs.high_half_kept` | false of the code for three kinds of calls: by registers, the 32-bit entry used by 64-bit code and the number -1 in 32 bits; with PTRACE_GET_SYSCALL_INFO, 32-bit calls reported with high halves. Proved for every history of other calls, whichever way they are read; overlay_reg is the conversion of overlaid register structures |
| C95 | Messages about modes tell the mode of every line | proved | `Regs.modes_told` | for every history and all answers of the kernel; the mode a tracee is given when it appears is that in force, which is not shown |
| C96 | Messages and vectors of messages are shown as transferred | proved | `Msg.recvmmsg_shown`, `Msg.recvmmsg_all`, `Msg.recvmmsg_timeout`, `Msg.recvmmsg_failed`, `Msg.sendmmsg_shown`, `Msg.mmsg_raw`, `Msg.save_kept`, `Msg.sendmsg_shown`, `Msg.recvmsg_shown`, `Msg.recvmsg_not`, `Msg.share_sum`, `Msg.share_prefix`, `Arr.array_shown`, `Arr.array_not` | The vector is assumed not to wrap around the address space (it is then shown as an address, Arr.array_not). Names are decoded as in C88; the walk over control messages is C34. |
| C97 | Options mean together what they say | partial | `Opt.init_partial`, `Opt.init_stops`, `Opt.init_order`, `Opt.separately_lost`, `Lead.stamps_arg`, `Lead.stamps_short`, `Lead.stamps_prec` | The claim is false for one -f together with --output-separately: the second option is lost (separately_lost). init_partial is the claim for all other lists of known options; init_stops covers lists that are refused in the loop; stamps_arg is the argument of --absolute-timestamps. Arguments of options are taken as parsed (their parsing is C01, C02, C04, C47, C63, C69). |
| C98 | The beginning of a line says which process and when | proved | `Lead.lead_read`, `Lead.no_pid` | The text of a time of day (localtime, strftime %T) is a parameter of the model (OkClock: eight characters, or nothing when localtime fails). Security contexts (--secontext) are not in the model. |
| C99 | Relative timestamps add up | partial | `Lead.rel_adds_up_partial`, `Lead.rel_read_partial`, `Lead.steps_sum`, `Lead.rel_cut`, `Lead.rel_separate_wrong`, `Lead.rel_dropped_wrong` | The claim is false with a file for each process (rel_separate_wrong) and with -z and the like (rel_dropped_wrong): the time of the line before is one variable for all files, set also by lines that are not published. rel_adds_up_partial is the claim for one file all of whose lines are published; rel_read_partial says that these are the differences a reader finds in the text. |
| C100 | A stack trace follows the line it belongs to | partial | `Unwind.stacks_partial`, `Unwind.stacks_fatal`, `Unwind.stacks_stale`, `Unwind.stacks_exit_late`, `Unwind.stacks_empty_wrong`, `Unwind.unnamed_differs` | The claim is false: with -z (or -Z, -e status=) the stack of an execve that is not shown stays in the queue, so that it follows the next line (stacks_stale), or strace ends with a message about a bug at the next execve (stacks_fatal); the stack of exit comes after the line about the end of the process (stacks_exit_late); if nothing was captured the stack on leaving is shown (stacks_empty_wrong). stacks_partial is the claim with all statuses, results that can be read, and no line about the end. One process; the output of other processes between its lines is not in the model (C15). |
| C101 | What a stack trace shows of an address is current | partial | `Unwind.walks_partial`, `Unwind.walk_limit`, `Unwind.cache_bounds`, `Unwind.limit_exact`, `Unwind.uWalk_eq` | With libdw the note about too many frames is also shown for a stack that has exactly as many as the limit (limit_exact); walks_partial is the claim for all others. uWalk_eq is the same for libunwind, without exception. That libdw and libunwind find the right frames is not in the model. |
| C102 | The traced program inherits exactly the descriptors strace was started with | proved | `Fds.inherited`, `Fds.later_opens` | descriptors as a table with lowest-free allocation; failing calls end strace and are not modelled |
| C103 | -u runs the program as that user, or not at all | partial | `Cred.pair_partial`, `Cred.user_name`, `Cred.pair_junk`, `Cred.runs_as`, `Cred.runs_partial`, `Cred.seccomp_setreuid`, `Cred.seccomp_stop`, `Cred.filter_privs` | that the program runs as the user if at all is proved for all cases; missing, because false: text after a second colon is ignored, and with -u and --seccomp-bpf tracing setreuid, kill or getpid keeps the program from running (findings 89, 90) |
| C104 | Attaching at startup: each process named is traced once, with its threads | proved | `Attach.startup_attached`, `Attach.startup_ends`, `Attach.startup_interrupted`, `Attach.lookup_after_startup`, `Attach.named_twice` | unless memory runs out; a process dying between PTRACE_SEIZE and PTRACE_INTERRUPT is not modelled, pid namespaces are not translated |
| C105 | What -y and -yy show of a descriptor is what it refers to | partial | `Deco.shown_as_wanted`, `Deco.ioctl_same`, `Deco.nothing_known`, `Deco.target_partial`, `Deco.read_path`, `Deco.read_dev`, `Deco.sig_text`, `Deco.read_event`, `Deco.read_pid`, `Deco.read_plain`, `Deco.other_socket`, `Deco.other_tty`, `Deco.by_name` | Holds for the descriptors of the caller. False of the code for the descriptors of another process (pidfd_getfd, kcmp): sockets and pseudo-terminals are looked up with the caller's own descriptor of that number (other_socket, other_tty); target_partial is the claim for everything else. Devices are recognised by name (by_name shows the condition NameHolds is needed). |
| C106 | The exit reason shown for KVM_RUN is that of the vCPU that ran | partial | `Kvm.reason_partial`, `Kvm.usual_good`, `Kvm.two_machines`, `Kvm.moved_other`, `Kvm.moved_little`, `Kvm.number_reused` | False of the code with two virtual machines in one process (two_machines), after mremap when another vCPU, or a stack trace, uses the cache first (moved_other) or when the mapping moves by less than its size (moved_little), and when a descriptor number is given to another vCPU by dup2 or by another thread (number_reused). reason_partial is the claim for all other histories; usual_good shows they include two vCPUs and stack traces. |
| C107 | What a decoder keeps on entering is what it gets on exiting | partial | `Priv.given_back_partial`, `Priv.never_twice`, `Priv.after_first`, `Priv.attached_outside`, `Priv.outside_always`, `Priv.version_for_address` | The full claim is false of the code, findings 96 and 97: proved for tracees that strace did not attach to outside of any call, and for ipc calls whose decoder keeps nothing besides the version; without these conditions nothing is released twice, and only the first call after attaching is concerned. |
| C108 | A filter program shown can be assembled back to the same program | partial | `Bpf.read_back_partial`, `Bpf.read_rest`, `Bpf.read_long`, `Bpf.read_back_ebpf`, `Bpf.upper_lost`, `Bpf.code_named`, `Bpf.action_named`, `Bpf.no_action`, `Bpf.extension_named` | The full claim is false of the code, finding 98: the upper half of the code of BPF_LD, BPF_LDX, BPF_ALU and BPF_JMP instructions is not shown. Proved for codes without such bits, as in all programs the kernel accepts, and for all eBPF programs. |
| C109 | What PTRACE_GET_SYSCALL_INFO answers is tested before it is relied on, and shown as far as it was written | partial | `Psi.supported_iff`, `Psi.child_gone`, `Psi.shown_partial`, `Psi.fetched`, `Psi.half_of_flags`, `Psi.second_reserved` | the claim about printing is false where exactly three bytes were transferred (half_of_flags: half of flags is shown as if it were all) and of reserved2 of a seccomp stop, which is never shown (second_reserved); otherwise it is proved for all contents and lengths. The test is proved for all sequences of events |
| C110 | Records packed one after another are all shown, and nothing beyond them is read | proved | `Packed.contexts_shown`, `Packed.contexts_limited`, `Packed.text_place`, `Packed.contexts_local`, `Packed.texts_inside`, `Packed.contexts_count`, `Packed.bad_length`, `Packed.items_shown`, `Packed.items_local` | bad_length says what is shown of a context with an impossible length: it is the last one. items_local asks for a buffer not in the first 32 bytes of memory (it follows a structure of at least 104 bytes) |
| C111 | What is shown of a socket option is what was passed | partial | `Sockopt.get_back_partial`, `Sockopt.get_number`, `Sockopt.get_ucred`, `Sockopt.get_dots`, `Sockopt.get_local_partial`, `Sockopt.netlink_past_end`, `Sockopt.short_filter`, `Sockopt.set_back_partial`, `Sockopt.set_local_partial`, `Sockopt.negative_length`, `Sockopt.packet_back`, `Sockopt.group_back`, `Sockopt.lengths`, `Sockopt.no_value` | Proved for every option and length but three cases, for each of which the claim is false of the code and a witness is proved: an ICMP filter of fewer than 4 bytes, a netlink option that returned fewer than 4 bytes, and a negative length given to setsockopt. Filter programs are C108; the key of TCP_AO_ADD_KEY is not modelled. |
| C112 | SELinux contexts belong to the file the call names and can be read back | partial | `Secon.part_shown`, `Secon.wanted_unique`, `Secon.quote_clean`, `Secon.context_back`, `Secon.no_brackets`, `Secon.file_context`, `Secon.file_context_shown`, `Secon.fd_context`, `Secon.directories_partial`, `Secon.symlink_path`, `Secon.symlink_target`, `Secon.fsconfig_directory` | partial because the code looks up the path of fsconfig(FSCONFIG_SET_PATH) in the current directory although the descriptor comes in the next argument (fsconfig_directory), and shows for the target of symlinkat, which the kernel does not look up, the context of the file of that name in the current directory (symlink_target); both are shown with witnesses. Proved for all other modelled calls and for all histories. libselinux, realpath and stat are given functions; that getfilecon follows a symbolic link where the call does not is therefore outside the model |
| C113 | What is printed of arguments is well formed whatever memory can be read | partial | `Gram.nameToHandleAt_wf`, `Gram.kdKeycode_wf`, `Gram.kdKbdrep_wf`, `Gram.kdFontx_wf`, `Gram.kdFontOp_wf`, `Gram.teeShm_wf`, `Gram.queryBpf_wf`, `Gram.ifconf_wf`, `Gram.v4l2Format_wf`, `Gram.v4l2Requestbuffers_wf`, `Gram.v4l2Streamparm_wf`, `Gram.v4l2Tuner_wf`, `Gram.v4l2Queryctrl_wf`, `Gram.v4l2ExtControls_wf`, `Gram.uffdApi_wf`, `Gram.uffdCopy_wf`, `Gram.uffdRange_wf`, `Gram.ptpSysOffset_wf`, `Gram.ptpSysOffsetExtended_wf`, `Gram.ptpPin_wf`, `Gram.rtcParam_wf`, `Gram.fiemap_wf`, `Gram.dedupe_wf`, `Gram.lsmGet_wf`, `Gram.schedSetattr_wf`, `Gram.getThreadArea_wf`, `Gram.clone3_wf`, `Gram.ioctlUnknown_wf`, `Gram.seccompNotif_wf`, `Gram.sysIoctl_wf`, `Gram.teeOpen_wf_iff_partial`, `Gram.teeInvoke_wf_iff_partial`, `Gram.teeRecv_wf_iff_partial`, `Gram.teeSend_wf_iff_partial`, `Gram.kdUnimap_wf_iff_partial`, `Gram.sgIoV3_wf_iff_partial`, `Gram.sgIoV4_wf_iff_partial` | partial because the claim is false of four calls of the TEE driver, of GIO_UNIMAP and of SG_IO; the theorems named _wf_iff_partial say exactly when. Text is reduced to brackets, commas, names and values; decoders not listed in DESIGN.md are not covered. |
| C114 | --seccomp-bpf is used only where the kernel's order of stops is known | proved | `Order.order_iff`, `Order.order_unique`, `Order.child_gone`, `Order.used_iff`, `Order.used_program`, `Order.installed_iff` | the loop of the test is modelled for every sequence of events; is_complete_set_array is a parameter here (C03), so are the lengths of the programs (C15) |
| C115 | The request of ioctl is shown by expressions that have its value | partial | `Ioc.values_iff_partial`, `Ioc.shown_always`, `Ioc.symbols_shown`, `Ioc.terminal_only`, `Ioc.hid_name`, `Ioc.spi_message`, `Ioc.mixer_write`, `Ioc.abs_size` | False of the code for HIDIOCGNAME, SPI_IOC_MESSAGE and MIXER_WRITE, and for requests of another size than that in EVIOCGABS, EVIOCSABS and MIXER_READ; values_iff_partial says that these are all. The encoding of SPARC is not modelled. |
| C116 | Hardware addresses are shown as they are, whatever was shown before | partial | `Hw.readable_iff_partial`, `Hw.always_printed`, `Hw.quoted_all`, `Hw.stale_shown`, `Hw.bridge_cut`, `Hw.infiniband_cut` | False of the code: a link's address is cut to the length the table has for the address family of the message taken as a device type, and an address of no bytes is shown as the last one formatted before. readable_iff_partial says that these are the only cases. |
| C117 | An error message of netlink shows the request it quotes and the attributes after it | partial | `Nlerr.every_byte`, `Nlerr.message_every_byte`, `Nlerr.message_shown`, `Nlerr.request_shown`, `Nlerr.attributes_iff_partial`, `Nlerr.no_attributes`, `Nlerr.depth_le`, `Nlerr.depth_unbounded`, `Nlerr.padding_not_skipped` | False of the code for requests whose length is not a multiple of four: the padding the kernel puts before the attributes is not skipped. attributes_iff_partial says that this is the only case. Nesting is bounded by the length of the message only, and each level is a level of recursion. |
| C118 | fcntl: a call is shown by itself, its input when it begins and its output when it has ended | partial | `Fcntl.own_iff`, `Fcntl.own_partial`, `Fcntl.history_partial`, `Fcntl.history_counterexample`, `Fcntl.getown`, `Fcntl.input_early`, `Fcntl.output_late`, `Fcntl.no_argument`, `Fcntl.other_command`, `Fcntl.value_shown`, `Fcntl.set_lock_shown`, `Fcntl.get_lock_shown`, `Fcntl.owner_shown`, `Fcntl.fd_result`, `Fcntl.hex_result`, `Fcntl.explained` | Full for the argument and for every command but F_GETOWN; the full claim on histories is false of the code: F_GETOWN decides on entering, from the result of the call before, whether its result is a process or a group (witness history_counterexample; own_iff shows that it is the only command). |
| C119 | A value shown without an ellipsis is complete, also where a final NUL is left out | partial | `Quote.trail_text`, `Quote.trail_complete_iff`, `Quote.trail_complete_hex_partial`, `Quote.trail_complete_short_partial`, `Quote.trail_counterexample` | False of the code: a value longer than the limit whose last byte within the limit is NUL is shown without that byte and without an ellipsis (trail_counterexample); trail_complete_iff gives exactly these cases, and trail_text what is shown in every case. |
| C120 | Buffers that a call has filled are shown as far as they have been filled, and no further | partial | `Filled.exact_partial`, `Filled.only_written_partial`, `Filled.leaks`, `Filled.msgrcv_leaks`, `Filled.failed_addr`, `Filled.bounded_partial`, `Filled.injected_counterexample` | False of the code for msgrcv, KEYCTL_PKEY_*, KEYCTL_READ/DESCRIBE with too small a buffer, and getgroups(0, p), which show memory that has not been written (leaks, each with the contract of the call met; msgrcv_leaks for every message); proved for all other cases (exact_partial, only_written_partial). Failures: full (failed_addr). Injected results: proved for recv, keyctl, listmount (bounded_partial), false of the others (injected_counterexample). |
| C121 | Structures a call reads are shown as they were when it began, those it writes as it left them | partial | `Inout.each_once`, `Inout.input_partial`, `Inout.adjtimex_input_lost`, `Inout.sigaction_counterexample`, `Inout.output_partial`, `Inout.clock_nanosleep_counterexample`, `Inout.only_partial`, `Inout.waitid_counterexample`, `Inout.waitid_times`, `Inout.failed_only_input` | Full: every argument once and in order (each_once); after a failure nothing but input (failed_only_input). False of the code, with witnesses, for adjtimex/clock_adjtime (input shown only as left by the call), rt_sigaction at the end of a mapping, interrupted clock_nanosleep with other flags, and waitid (usage and times that have not been written); proved for all else. |
| C122 | The text after a result explains that result | partial | `Expl.history_partial`, `Expl.exit_iff`, `Expl.exit_partial`, `Expl.failed_partial`, `Expl.failed_counterexample`, `Expl.other_thread_counterexample`, `Expl.speculation_counterexample` | Proved for all histories and threads; exactly two kinds of calls borrow the text of another: NS_GET_NSTYPE that fails, and PR_GET_SPECULATION_CTRL of an unknown misfeature (exit_iff). The full claim is false of these, with witnesses. |
| C123 | prctl shows what the kernel is given and what it gives back | partial | `Prctl.early_before`, `Prctl.late_after`, `Prctl.filled_late`, `Prctl.name_set`, `Prctl.name_got`, `Prctl.filter_set`, `Prctl.determined_iff`, `Prctl.determines_partial`, `Prctl.determines_counterexample`, `Prctl.mdwe_counterexample`, `Prctl.in_order`, `Prctl.number_of`, `Prctl.arch_filled_partial`, `Prctl.arch_value`, `Prctl.arch_no_argument`, `Prctl.arch_filled_counterexample` | Proved for all options; exactly four of them hide something the kernel looks at (determined_iff), and three codes of arch_prctl do not show what the kernel has written. Not in the model: the forms of numbers (flags, names), the buffer of PR_GET_AUXV and the structure of PR_SET_MM_MAP, which the decoder does not look at. |
| C124 | Calls whose operation decides their arguments show what the operation looks at | partial | `Ops.all_shown_partial`, `Ops.in_order`, `Ops.all_true`, `Ops.early_only`, `Ops.user_offset`, `Ops.lookup_le`, `Ops.regset_shown`, `Ops.metadata_shown`, `Ops.pkey_data`, `Ops.dh_late`, `Ops.signal_cut` | in order, truth, separators, offsets of the user area are proved in full; that all is shown fails for the parameters of KEYCTL_DH_COMPUTE, which are shown as they are in the end (dh_late), and for the signal of PTRACE_CONT and similar requests, of which the high 32 bits are not shown (signal_cut); all_shown_partial has all the rest |
| C125 | The summary of -c can be read back | partial | `Table.summary_read_partial`, `Table.history_sane`, `Table.carry_too_long`, `Table.longest_moved`, `Table.average_low`, `Table.pct_close`, `Table.micro_near`, `Table.usecs_close`, `Table.mean_close` | Double arithmetic is modelled as IEEE binary64. False for the columns longest and shortest when a time rounds up to a further digit (longest_moved, carry_too_long says exactly when): the row is moved. An average that is a whole number of microseconds may be shown as one less (average_low); usecs_close bounds it. Proved for all other cases. |
| C126 | Calls about signals show the sets and actions that they read and fill | partial | `Sigc.shown_partial`, `Sigc.shown`, `Sigc.in_order`, `Sigc.not_before`, `Sigc.failed_shows_addresses`, `Sigc.results`, `Sigc.mask_is_no_error`, `Sigc.action_not_shown`, `Sigc.action_shown_iff` | Proved in full for all calls but rt_sigaction. False of the code for rt_sigaction: strace reads 56 bytes more than the kernel's structure has, and shows only the address of an action that is followed by unreadable memory (action_not_shown, with the exact condition in action_shown_iff). |
| C127 | A time with a fraction is the time that is meant | partial | `Tsf.time_close_partial`, `Tsf.negative_rejected`, `Tsf.no_unit_rejected`, `Tsf.accepted_form`, `Tsf.undefined_form`, `Tsf.not_exact`, `Tsf.not_defined`, `Tsf.strtod_text`, `Tsf.split_close` | Numbers below 2^52 (a hundred years in microseconds) are read to within 1 + 2^-22 ns and 2^-53 of the time. False of the code beyond: 1e30 and -nan convert a double to an integer type that has no place for it (not_defined); undefined_form says that these are the only such texts. not_exact: 4.35s is a nanosecond short, as the result is cut off. strtod and the rounding of binary64 are contracts. |
| C128 | -f follows every child, and nobody else is followed | partial | `Fork.follows`, `Fork.nobody_else`, `Fork.ends_last`, `Fork.ends`, `Fork.ends_last_pipe_partial`, `Fork.goes_on`, `Fork.announced`, `Fork.only_named`, `Fork.pipe_counterexample`, `Fork.attach_counterexample`, `Fork.orphan_example`, `Fork.let_go_example` | The claim is false of the code in two cases, which have witnesses: with -o '/command' strace ends when it has no records, though a child waits for its first stop to be reported (ends_last_pipe_partial: nobody else is left); and with PTRACE_ATTACH (no PTRACE_SEIZE) a child made between attaching and the first stop is not followed. Everything else is proved for all interleavings. Changes of process numbers by execve are C29. |
| C129 | What bpf() shows of its attributes is what the kernel takes from them | partial | `Battr.complete_partial`, `Battr.truthful`, `Battr.answered_partial`, `Battr.address`, `Battr.abbreviated`, `Battr.detach_loses`, `Battr.load_loses`, `Battr.update_loses`, `Battr.cookie_loses`, `Battr.name_loses`, `Battr.run_unanswered`, `Battr.query_unanswered` | complete_partial leaves out the five fields that strace does not show (the _loses theorems: two calls that the kernel can tell apart and that are shown alike), answered_partial the results that it does not show (the _unanswered theorems). Which bytes the kernel looks at is from the kernel's interface. What is at addresses in the attributes, and the information of BPF_OBJ_GET_INFO_BY_FD, is not modelled. |
| C130 | Calls about memory are shown with what the kernel is asked | partial | `Memc.arguments`, `Memc.no_more`, `Memc.offset_bytes_partial`, `Memc.offset_narrow`, `Memc.offset_wraps`, `Memc.indirect_mmap`, `Memc.indirect_address`, `Memc.new_address`, `Memc.mincore_pages`, `Memc.mincore_failed`, `Memc.mincore_limit_partial`, `Memc.mincore_limit_lost`, `Memc.mincore_unreadable` | Partial for two cases: the offset of mmap is shown in bytes if it is below 2^64 bytes (always so for 32-bit programs, offset_narrow); beyond that, which a 64-bit mmap in pages can give, the number shown wraps (offset_wraps); the limit of the vector of mincore is kept for fewer than 2^32 pages (mincore_limit_partial), beyond that it may be lost (mincore_limit_lost). |
| C131 | Asynchronous requests and events are shown with what they ask and tell | partial | `Aio.request_partial`, `Aio.submit_partial`, `Aio.submit_negative`, `Aio.events`, `Aio.events_failed`, `Aio.events_numbers`, `Aio.setup_shown`, `Aio.cancel_shown`, `Aio.fsync_hides`, `Aio.cancel_hides` | Partial: of requests with operations other than pread, pwrite, preadv, pwritev and poll what is shown is right but not complete: the code leaves out the flags and the descriptor to be told (fsync_hides). Of io_cancel the address of the request, by which the kernel finds it, is not shown (cancel_hides). |
| C132 | A resource limit is shown exactly, in every style | proved | `Lim.limit_exact`, `Lim.limit_injective`, `Lim.limit_named`, `Lim.product_fits`, `Lim.set_limits`, `Lim.get_limits`, `Lim.both_limits`, `Lim.priorities` | A reader of the text, written apart from the model, finds the limit for every style and width; the calls show what a reader finds to be the words in memory. |
| C133 | Sockets, pairs and messages are shown with what the kernel is asked | partial | `Net.protocol_family_partial`, `Net.irda_wrong`, `Net.protocol_number`, `Net.protocol_injective`, `Net.packet_injective`, `Net.domain_high`, `Net.pairs`, `Net.sends` | Partial because the code is wrong for AF_IRDA: it takes the names of the protocols of AF_CAN (irda_wrong); proved for the fourteen other families with names. If the register of the domain holds more than an int, the name of the protocol is not shown although the kernel ignores the rest (domain_high). |
| C134 | Rings are shown as asked for and as made, and comparisons with the right processes | partial | `Ring.setup_given`, `Ring.setup_filled`, `Ring.setup_failed`, `Ring.setup_unreadable`, `Ring.setup_balanced`, `Ring.setup_phases`, `Ring.enter_shown`, `Ring.kcmp_first`, `Ring.kcmp_file`, `Ring.kcmp_epoll`, `Ring.kcmp_unreadable`, `Ring.kcmp_other`, `Ring.completions_hidden` | The claim holds of all members but one: the number of completions that a program asks for with IORING_SETUP_CQSIZE is never shown as it is given, only as the kernel leaves it (completions_hidden). |
| C135 | What is registered with a ring is shown by operation, as given and as answered | partial | `Rreg.framed`, `Rreg.ring_shown`, `Rreg.operation`, `Rreg.given`, `Rreg.answered`, `Rreg.exchanged`, `Rreg.probed`, `Rreg.probe_changed`, `Rreg.miscounted`, `Rreg.remaining`, `Rreg.workers`, `Rreg.group_hidden` | The claim holds of all operations but one: the group of buffers whose status is asked for is read by the kernel, but it is shown only after success (group_hidden). The contents of arrays of buffers, descriptors, restrictions and resources are not modelled here. |

## Axioms

Printed by `#print axioms` for every theorem named in `MANIFEST.json`:

*No axioms* (18 theorems): `Count.calls_misordered`, `Delay.discarded_notification`, `Delay.late_by_gap`, `Ev.delayed_wrong_personality`, `Hide.comm_stale`, `Hide.own_code_seen`, `Inject.injection_not_independent`, `Inject.not_injected_reported`, `Inject.plain_call_misreported`, `Misc.involution_bijection`, `Quote.quoteAlloc_wraps`, `Secon.fsconfig_directory`, `Secon.symlink_path`, `Show.long_array_unlimited`, `Show.print_array_empty`, `Time.tsDiv_wraps`, `Tracee.args_plain`, `Tracee.dm_abbreviated`.

*propext* (115 theorems): `Aio.cancel_hides`, `Battr.cookie_loses`, `Battr.run_unanswered`, `Cred.filter_privs`, `Cred.runs_as`, `Cred.seccomp_setreuid`, `Delay.some3_valid`, `Detach.absent_detach`, `Detach.stopped_detach_partial`, `Detach.waits_for_stopped`, `Ev.beyond_table_missed`, `Ev.exec_switch_missed`, `Ev.exec_switch_op`, `Ev.exit_code_others`, `Ev.exit_code_pid0`, `Fcntl.fd_result`, `Fcntl.getown`, `Fcntl.history_counterexample`, `Fcntl.history_partial`, `Fcntl.other_command`, `Fcntl.own_iff`, `Fcntl.own_partial`, `Filled.injected_counterexample`, `Filled.leaks`, `Fork.let_go_example`, `Gram.getThreadArea_wf`, `Gram.ioctlUnknown_wf`, `Gram.kdFontx_wf`, `Gram.kdKbdrep_wf`, `Gram.kdKeycode_wf`, `Gram.nameToHandleAt_wf`, `Gram.rtcParam_wf`, `Gram.schedSetattr_wf`, `Gram.seccompNotif_wf`, `Gram.sysIoctl_wf`, `Gram.teeShm_wf`, `Gram.uffdApi_wf`, `Gram.uffdCopy_wf`, `Gram.uffdRange_wf`, `Gram.v4l2Format_wf`, `Gram.v4l2Requestbuffers_wf`, `Gram.v4l2Streamparm_wf`, `Gram.v4l2Tuner_wf`, `Inject.injected_retval_reported`, `Inject.plain_reported`, `Inout.clock_nanosleep_counterexample`, `Inout.each_once`, `Inout.sigaction_counterexample`, `Ioc.abs_size`, `Ioc.hid_name`, `Ioc.mixer_write`, `Ioc.spi_message`, `Lead.stamps_prec`, `Memc.no_more`, `Memc.offset_bytes_partial`, `Memc.offset_wraps`, `Misc.release_misordered`, `Misc.x32_clash`, `Msg.mmsg_raw`, `Net.domain_high`, `Order.order_unique`, `Out.detach_glues`, `Out.exec_halved`, `Out.exec_splits_next`, `Out.failed_ptrace_glues`, `Out.killed_lost`, `Out.note_tears`, `Prctl.determines_counterexample`, `Prctl.early_before`, `Prctl.late_after`, `Prctl.mdwe_counterexample`, `Priv.attached_outside`, `Priv.version_for_address`, `Psi.child_gone`, `Psi.half_of_flags`, `Psi.second_reserved`, `Quote.shown_all`, `Quote.trail_counterexample`, `Ring.completions_hidden`, `Ring.setup_balanced`, `Ring.setup_failed`, `Ring.setup_phases`, `Secon.directories_partial`, `Show.Dumpio.failed_sendmmsg`, `Show.Dumpio.nothing_dumped`, `Show.Dumpio.recv_beyond_buffer`, `Show.dump_stops_at_empty`, `Show.line_length`, `Sig.event_as_addr`, `Sig.kernel_as_addr`, `Sig.poll_as_source`, `Sig.siginfo_at`, `Sig.siginfo_at_addr`, `Sig.siginfo_none`, `Sig.tkill_value`, `Sigc.failed_shows_addresses`, `Sigc.in_order`, `Sigc.not_before`, `Sized.mntIdReq_short_hidden`, `Sized.schedGet_more_hidden`, `Sized.schedSet_policy_hidden`, `Sock.origDst_beyond_in6`, `Sock.origDst_beyond_un`, `Sock.origDst_leak`, `Sock.sockname_failed`, `StringToUint.isDigit_iff`, `Tracee.event_outside`, `Tracee.short_name_unread`, `Trie.iterate_endless`, `Trie.iterate_wrong_count`, `Tsf.not_defined`, `Tsf.not_exact`, `UCopy.poke_then_stale`, `UCopy.umovestr_beyond_limit`, `UCopy.umovestr_wrong_count`.

*Quot.sound, propext* (224 theorems): `Aio.events`, `Aio.events_failed`, `Aio.events_numbers`, `Aio.fsync_hides`, `Aio.submit_negative`, `Args.args_shown_partial`, `Args.csky_fadvise`, `Args.msgrcv_changed`, `Args.semctl_version`, `Args.sh_fadvise`, `Args.sh_sync`, `Arr.array_not`, `Attach.named_twice`, `Battr.abbreviated`, `Battr.detach_loses`, `Battr.load_loses`, `Battr.name_loses`, `Battr.query_unanswered`, `Battr.update_loses`, `Bits.mem_sigList`, `Bits.nextSetBit_le`, `Bpf.code_named`, `Bpf.extension_named`, `Bpf.upper_lost`, `Cli.program_not_found`, `Count.commas_exist`, `Count.sort_names`, `Cred.runs_partial`, `Cred.seccomp_stop`, `Cred.user_name`, `Delay.lost_flag`, `Delay.never_early`, `Detach.signal_lost`, `Detach.unseized_death`, `Detach.unseized_detach`, `Diag.abstract_cut`, `Diag.connect_not_shown`, `Diag.family_twice`, `Ev.dispatched_to_tracee_partial`, `Ev.exit_code_exited_partial`, `Ev.extra_to_freed`, `Ev.limit_none`, `Ev.taken_all`, `Fcntl.explained`, `Fcntl.get_lock_shown`, `Fcntl.hex_result`, `Fcntl.owner_shown`, `Fcntl.set_lock_shown`, `Filled.failed_addr`, `Fork.attach_counterexample`, `Fork.ends_last_pipe_partial`, `Fork.follows`, `Fork.goes_on`, `Fork.nobody_else`, `Fork.only_named`, `Fork.orphan_example`, `Fork.pipe_counterexample`, `Gram.clone3_wf`, `Gram.dedupe_wf`, `Gram.fiemap_wf`, `Gram.ifconf_wf`, `Gram.kdFontOp_wf`, `Gram.kdUnimap_wf_iff_partial`, `Gram.lsmGet_wf`, `Gram.ptpPin_wf`, `Gram.ptpSysOffsetExtended_wf`, `Gram.ptpSysOffset_wf`, `Gram.queryBpf_wf`, `Gram.teeInvoke_wf_iff_partial`, `Gram.teeOpen_wf_iff_partial`, `Gram.teeRecv_wf_iff_partial`, `Gram.teeSend_wf_iff_partial`, `Gram.v4l2ExtControls_wf`, `Gram.v4l2Queryctrl_wf`, `Hide.comm_shown_partial`, `Hide.real_is_last`, `Hide.reported_until_detach`, `Hw.quoted_all`, `Inject.injection_independent_partial`, `Inout.adjtimex_input_lost`, `Inout.failed_only_input`, `Inout.input_partial`, `Ioc.shown_always`, `Ioc.symbols_shown`, `Lead.no_pid`, `Lead.rel_cut`, `Lead.rel_dropped_wrong`, `Lead.rel_separate_wrong`, `Lead.stamps_arg`, `Lead.steps_sum`, `Memc.arguments`, `Memc.indirect_mmap`, `Memc.offset_narrow`, `Misc.arm_numbers`, `Misc.deep_overrun`, `Misc.entry_fields`, `Misc.maps_all`, `Misc.maps_history_partial`, `Misc.maps_stale`, `Misc.pokes_lost`, `Misc.rules_kept`, `Misc.table_numbers`, `Msg.recvmmsg_timeout`, `Msg.recvmsg_not`, `Msg.save_kept`, `Msg.share_prefix`, `Msg.share_sum`, `Net.pairs`, `Net.protocol_number`, `Net.sends`, `Nlerr.depth_le`, `Nlerr.depth_unbounded`, `Nlerr.every_byte`, `Nlerr.message_every_byte`, `Nlerr.no_attributes`, `Nlerr.padding_not_skipped`, `Nlerr.request_shown`, `NumberSet.isComplete_unsound`, `NumberSet.isEmptySet_sound`, `Ops.dh_late`, `Ops.early_only`, `Ops.in_order`, `Ops.lookup_le`, `Ops.signal_cut`, `Ops.user_offset`, `Opt.init_order`, `Opt.separately_lost`, `Order.child_gone`, `Order.installed_iff`, `Order.order_iff`, `Order.used_program`, `Pack.bpf_operation_names`, `Pack.status_shown`, `Packed.bad_length`, `Packed.contexts_count`, `Packed.contexts_local`, `Packed.items_local`, `Packed.items_shown`, `Packed.text_place`, `Prctl.arch_filled_counterexample`, `Prctl.arch_no_argument`, `Prctl.arch_value`, `Prctl.determined_iff`, `Prctl.determines_partial`, `Prctl.filter_set`, `Prctl.in_order`, `Prctl.name_got`, `Prctl.name_set`, `Prctl.number_of`, `Priv.after_first`, `Priv.given_back_partial`, `Priv.never_twice`, `Priv.outside_always`, `Psi.supported_iff`, `Quote.escape_chars_escaped`, `Quote.printstr_fits`, `Quote.quote_length`, `Quote.quote_nonAsciiChars_ambiguous`, `Regs.high_half_kept`, `Regs.int80_as_64`, `Regs.minus_one_as_x32`, `Regs.modes_told`, `Regs.overlay_reg`, `Ring.kcmp_first`, `Ring.setup_filled`, `Rreg.framed`, `Rreg.group_hidden`, `Rreg.miscounted`, `Rreg.probed`, `Rreg.remaining`, `Rreg.ring_shown`, `Rreg.workers`, `Seccomp.beyond_table_let_through`, `Seccomp.generators_fit`, `Seccomp.installed_wellformed`, `Seccomp.kernelOk_returns`, `Secon.part_shown`, `Secon.symlink_target`, `Secon.wanted_unique`, `Show.Dumpio.buffers_numbered`, `Show.Dumpio.dumped_partial`, `Show.Dumpio.vectors_numbered`, `Show.dump_overflow`, `Show.dump_shares_partial`, `Show.iov_shares`, `Show.iov_unlimited`, `Show.lines_bytes`, `Show.print_array_overflow`, `Show.print_array_partial`, `Show.read_back`, `Show.reason_unique`, `Sigc.mask_is_no_error`, `Sized.not_shown`, `Sized.short_shown`, `Sock.decode_not`, `Sock.returned_agree`, `Sockopt.get_dots`, `Sockopt.get_number`, `Sockopt.lengths`, `Sockopt.negative_length`, `Sockopt.netlink_past_end`, `Sockopt.no_value`, `Sockopt.short_filter`, `Table.average_low`, `Table.longest_moved`, `Tcb.grow_strict`, `Tcb.grow_succeeds`, `Tcb.realloc_exact`, `Time.clockComment_1024_wrong`, `Time.ilog10_spec`, `Time.timescaleSfx_eq`, `Tracee.dmString_shown`, `Tracee.dm_marked`, `Tracee.last_event_hidden`, `UCopy.umoven_max_len`, `Walk.chained_inside`, `Walk.control32_walk`, `Walk.control_all`, `Walk.control_endless`, `Walk.control_walk_partial`, `Walk.dents_all`, `Walk.netlink_walk`, `Walk.nlattr_walk`, `Xlat.printflags_raw`.

*Classical.choice, Quot.sound, propext* (489 theorems): `Aio.cancel_shown`, `Aio.request_partial`, `Aio.setup_shown`, `Aio.submit_partial`, `Args.direct_shown`, `Args.ipc_other`, `Args.ipc_shown_partial`, `Args.shmat_value`, `Args.socket_shown`, `Arr.array_shown`, `Attach.lookup_after_startup`, `Attach.startup_attached`, `Attach.startup_ends`, `Attach.startup_interrupted`, `Battr.address`, `Battr.answered_partial`, `Battr.complete_partial`, `Battr.truthful`, `Bits.nextSetBit_be`, `Bits.scan_spec`, `Bits.selectText_fits`, `Bits.selectText_malformed`, `Bits.selectText_wellformed_partial`, `Bits.sprintsigmask_exact`, `Bits.sprintsigmask_fits_partial`, `Bits.sprintsigmask_verbose_overflows`, `Bpf.action_named`, `Bpf.no_action`, `Bpf.read_back_ebpf`, `Bpf.read_back_partial`, `Bpf.read_long`, `Bpf.read_rest`, `Cli.error_reads_back`, `Cli.error_text`, `Cli.first_in_path_partial`, `Cli.inject_option`, `Cli.option_of_text`, `Cli.option_unique`, `Cli.pid_list`, `Cli.poke_loose`, `Cli.poke_reads`, `Cli.poke_shape_partial`, `Cli.program_found`, `Cli.retval_text`, `Cli.signal_reads_back`, `Cli.signal_text`, `Cli.signal_value`, `Cli.tokens_any_order`, `Cli.trailing_colon`, `Cli.words_exist`, `Cli.words_unique`, `Count.columns_fit`, `Count.columns_given`, `Count.comparison_consistent`, `Count.larger_first_partial`, `Count.names_in_order`, `Count.one_row_each`, `Count.sorted_table_partial`, `Count.table_is_history`, `Count.totals_are_history`, `Cred.pair_junk`, `Cred.pair_partial`, `Deco.by_name`, `Deco.ioctl_same`, `Deco.nothing_known`, `Deco.other_socket`, `Deco.other_tty`, `Deco.read_dev`, `Deco.read_event`, `Deco.read_path`, `Deco.read_pid`, `Deco.read_plain`, `Deco.shown_as_wanted`, `Deco.sig_text`, `Deco.target_partial`, `Delay.timer_armed_partial`, `Delay.woken_partial`, `Detach.cleanup_each`, `Detach.seized_detach`, `Diag.details_safe`, `Diag.details_shown_partial`, `Diag.families_table_partial`, `Diag.family_of_socket`, `Diag.file_no_inode`, `Diag.inode_as_family`, `Diag.inode_of_link`, `Diag.inode_only_link`, `Diag.pair_set`, `Diag.shown_current`, `Diag.shown_own`, `Ev.alternation_partial`, `Ev.classify_death`, `Ev.classify_spec`, `Ev.delay_loses_signal`, `Ev.exit_code_interrupted`, `Ev.exit_code_killed_partial`, `Ev.inject_signal_partial`, `Ev.limit_exact`, `Ev.queue_exact`, `Ev.signals_faithful`, `Expl.exit_iff`, `Expl.exit_partial`, `Expl.failed_counterexample`, `Expl.failed_partial`, `Expl.history_partial`, `Expl.other_thread_counterexample`, `Expl.speculation_counterexample`, `Fcntl.input_early`, `Fcntl.no_argument`, `Fcntl.output_late`, `Fcntl.value_shown`, `Fds.inherited`, `Fds.later_opens`, `Filled.bounded_partial`, `Filled.exact_partial`, `Filled.msgrcv_leaks`, `Filled.only_written_partial`, `Filter.qualifySyscallTokens_meaning`, `Filter.qualifyTokens_double_bang`, `Filter.qualifyTokens_meaning`, `Filter.qualifyTokens_overwrites`, `Fork.announced`, `Fork.ends`, `Fork.ends_last`, `Gram.sgIoV3_wf_iff_partial`, `Gram.sgIoV4_wf_iff_partial`, `Hide.attached_seen`, `Hide.detach_on_exec`, `Hide.own_code_hidden_partial`, `Hide.program_seen`, `Hide.signal_shown`, `Hide.started_injected`, `Hide.started_shown`, `Hw.always_printed`, `Hw.bridge_cut`, `Hw.infiniband_cut`, `Hw.readable_iff_partial`, `Hw.stale_shown`, `Inject.injected_error_reported`, `Inject.injected_subst_reported`, `Inject.parseWhen_bounds`, `Inject.parseWhen_iff`, `Inject.tamper_due_iff`, `Inject.when_schedule`, `Inout.only_partial`, `Inout.output_partial`, `Inout.waitid_counterexample`, `Inout.waitid_times`, `Ioc.terminal_only`, `Ioc.values_iff_partial`, `Kvm.moved_little`, `Kvm.moved_other`, `Kvm.number_reused`, `Kvm.reason_partial`, `Kvm.two_machines`, `Kvm.usual_good`, `Lead.lead_read`, `Lead.rel_adds_up_partial`, `Lead.rel_read_partial`, `Lead.stamps_short`, `Lim.both_limits`, `Lim.get_limits`, `Lim.limit_exact`, `Lim.limit_injective`, `Lim.limit_named`, `Lim.priorities`, `Lim.product_fits`, `Lim.set_limits`, `Memc.indirect_address`, `Memc.mincore_failed`, `Memc.mincore_limit_lost`, `Memc.mincore_limit_partial`, `Memc.mincore_pages`, `Memc.mincore_unreadable`, `Memc.new_address`, `Misc.answers_right_partial`, `Misc.arm_bijection`, `Misc.checks_right`, `Misc.env_others`, `Misc.env_values`, `Misc.foreach_ring`, `Misc.foreach_safe_remove`, `Misc.ioctl_names`, `Misc.list_step`, `Misc.list_steps`, `Misc.lists_refine`, `Misc.maps_ascending`, `Misc.maps_lookup`, `Misc.other_bijections`, `Misc.pokes_few`, `Misc.pokes_kept_partial`, `Misc.release_order_partial`, `Misc.rules_taken`, `Misc.too_many_reported`, `Misc.tracee_ns_right_partial`, `Misc.translate_right_partial`, `Misc.x32_bijection_partial`, `Misc.xor_involution`, `Msg.recvmmsg_all`, `Msg.recvmmsg_failed`, `Msg.recvmmsg_shown`, `Msg.recvmsg_shown`, `Msg.sendmmsg_shown`, `Msg.sendmsg_shown`, `Net.irda_wrong`, `Net.packet_injective`, `Net.protocol_family_partial`, `Net.protocol_injective`, `Nlerr.attributes_iff_partial`, `Nlerr.message_shown`, `NumberSet.isComplete_incomplete`, `NumberSet.isComplete_inverted_partial`, `NumberSet.isComplete_sound_partial`, `NumberSet.mem_add_of_cleared`, `NumberSet.mem_invert`, `NumberSet.numberSet_refines`, `Ops.all_shown_partial`, `Ops.all_true`, `Ops.metadata_shown`, `Ops.pkey_data`, `Ops.regset_shown`, `Opt.init_partial`, `Opt.init_stops`, `Order.used_iff`, `Out.calls_resumed_once`, `Out.nothing_elsewhere`, `Out.shared_log_content`, `Out.shared_log_leaders`, `Out.shared_log_lines`, `Out.status_filter_partial`, `Out.uninterrupted_one_line_partial`, `Pack.bpf_code_partial`, `Pack.bpf_shown`, `Pack.cflag_partial`, `Pack.cflag_trailing_bar`, `Pack.clone_flags`, `Pack.dev_number`, `Pack.futex_op`, `Pack.get_flags_glued`, `Pack.get_flags_partial`, `Pack.ioprio_arg`, `Pack.ipc_call`, `Pack.memfd_flags`, `Pack.mmap_flags_partial`, `Pack.mmap_high_lost`, `Pack.mount_flags_partial`, `Pack.mount_high_lost`, `Pack.nf_type`, `Pack.nla_type`, `Pack.oflag_partial`, `Pack.oflag_trailing_bar`, `Pack.open_flags`, `Pack.perf_cache`, `Pack.perf_hw`, `Pack.personality_arg`, `Pack.quota_cmd`, `Pack.riscv_ctrl`, `Pack.seccomp_k`, `Pack.shmget_flags`, `Pack.sock_type`, `Pack.status_word`, `Pack.tagged_addr`, `Pack.tone_arg`, `Pack.vl_val`, `Packed.contexts_limited`, `Packed.contexts_shown`, `Packed.texts_inside`, `Path.epoll_ctl_missed`, `Path.fd_path_right`, `Path.getcwd_spurious`, `Path.others_missed`, `Path.rename_missed`, `Path.selected_paths`, `Path.selection_right_partial`, `Path.selection_sound`, `Prctl.arch_filled_partial`, `Prctl.filled_late`, `Psi.fetched`, `Psi.shown_partial`, `Quote.printQuoted_fits`, `Quote.printQuoted_fits_comment_partial`, `Quote.printpath_ellipsis`, `Quote.printstr_bounded_ellipsis`, `Quote.printstr_ellipsis`, `Quote.printstrn_ellipsis`, `Quote.quote_injective`, `Quote.quote_printable`, `Quote.quote_roundtrip`, `Quote.quote_roundtrip_comment`, `Quote.shown_term`, `Quote.trail_complete_hex_partial`, `Quote.trail_complete_iff`, `Quote.trail_complete_short_partial`, `Quote.trail_text`, `Quote.x_nonAscii`, `Quote.xx_all_hex`, `Regs.calls_read_partial`, `Result.call_shown_partial`, `Result.elapsed_shown`, `Result.info_never_fails`, `Result.read_info_partial`, `Result.read_regs`, `Result.result_shown`, `Result.says_unique`, `Result.tOpt_spec`, `Ring.enter_shown`, `Ring.kcmp_epoll`, `Ring.kcmp_file`, `Ring.kcmp_other`, `Ring.kcmp_unreadable`, `Ring.setup_given`, `Ring.setup_unreadable`, `Rreg.answered`, `Rreg.exchanged`, `Rreg.given`, `Rreg.operation`, `Rreg.probe_changed`, `Seccomp.beyond_table_traced_partial`, `Seccomp.binary_selects`, `Seccomp.generators_agree`, `Seccomp.installed_selects`, `Seccomp.installed_selects_one`, `Seccomp.linear_selects`, `Seccomp.traced_iff`, `Secon.context_back`, `Secon.fd_context`, `Secon.file_context`, `Secon.file_context_shown`, `Secon.no_brackets`, `Secon.quote_clean`, `Sets.affinity_addr`, `Sets.affinity_shown`, `Sets.evdev_addr`, `Sets.evdev_hides`, `Sets.evdev_member`, `Sets.evdev_overread`, `Sets.evdev_shown_partial`, `Sets.icmpOut_shown`, `Sets.icmp_addr`, `Sets.icmp_shown`, `Sets.nodemask_shown`, `Show.dump_cut`, `Show.dump_round_trip`, `Show.dump_whole`, `Show.ilog2_spec`, `Show.same_width`, `Sig.code_name_abi`, `Sig.code_name_exact`, `Sig.siginfo_other`, `Sig.siginfo_shown_partial`, `Sigc.action_not_shown`, `Sigc.action_shown_iff`, `Sigc.results`, `Sigc.shown`, `Sigc.shown_partial`, `Sized.clone3_exit_shown`, `Sized.clone3_shown`, `Sized.clone3_text`, `Sized.mntIdReq_determines_partial`, `Sized.mntIdReq_short`, `Sized.mntIdReq_shown`, `Sized.mountAttr_determines`, `Sized.mountAttr_shown`, `Sized.openHow_determines`, `Sized.openHow_shown`, `Sized.perf_address`, `Sized.perf_brief`, `Sized.perf_flags_determined`, `Sized.perf_new_size`, `Sized.perf_shown`, `Sized.schedGet_shown_partial`, `Sized.schedSet_short`, `Sized.schedSet_shown`, `Sized.xattrArgs_shown`, `Sock.addr2str_eq`, `Sock.ax25_call`, `Sock.ax25_digis`, `Sock.ax25_hidden`, `Sock.call_comment`, `Sock.call_determines`, `Sock.decode_safe`, `Sock.fields_determined`, `Sock.fields_shown`, `Sock.ll_shown`, `Sock.msgName_returned`, `Sock.msgName_sent`, `Sock.origDst_in6`, `Sock.origDst_safe_partial`, `Sock.raw_shown`, `Sock.recvfrom_returned`, `Sock.sockname_returned`, `Sock.strings_shown`, `Sock.unix_abstract`, `Sock.unix_determined`, `Sock.unix_path`, `Sockopt.get_back_partial`, `Sockopt.get_local_partial`, `Sockopt.get_ucred`, `Sockopt.group_back`, `Sockopt.packet_back`, `Sockopt.set_back_partial`, `Sockopt.set_local_partial`, `StringToUint.isSpace_iff`, `StringToUint.stringToUintEx_iff`, `StringToUint.stringToUintEx_none_iff`, `Table.carry_too_long`, `Table.history_sane`, `Table.mean_close`, `Table.micro_near`, `Table.pct_close`, `Table.summary_read_partial`, `Table.usecs_close`, `Tcb.alloc_fresh`, `Tcb.exec_switch`, `Tcb.lookup_exact`, `Tcb.nprocs_exact`, `Tcb.one_record`, `Tcb.pointer_stable`, `Time.clockComment_100`, `Time.parseTs_int_iff`, `Time.ticksComment_exact_partial`, `Time.ticksDComment_exact_partial`, `Time.tsAdd_spec`, `Time.tsCmp_spec`, `Time.tsDiv_spec_partial`, `Time.tsMax_spec`, `Time.tsMin_spec`, `Time.tsNz_spec`, `Time.tsSub_clock`, `Time.tsSub_spec`, `Tracee.argc_shown`, `Tracee.argv_shown`, `Tracee.envp_shown`, `Tracee.message_shown`, `Tracee.nameList_placed`, `Tracee.nameList_shown`, `Tracee.poll_nothing`, `Tracee.poll_shown`, `Tracee.poll_timeout`, `Tracee.targetDeps_shown`, `Tracee.targetSpec_placed`, `Tracee.targetSpec_shown`, `Tracee.targetVersions_placed`, `Tracee.targetVersions_shown`, `Tracee.vector_total`, `Trie.iterate_complete_partial`, `Trie.iterate_spec_partial`, `Trie.trie_is_map`, `Tsf.accepted_form`, `Tsf.negative_rejected`, `Tsf.no_unit_rejected`, `Tsf.split_close`, `Tsf.strtod_text`, `Tsf.time_close_partial`, `Tsf.undefined_form`, `UCopy.poke_then_read_partial`, `UCopy.reach_inv`, `UCopy.read_true_partial`, `UCopy.umoven_fallback`, `UCopy.umoven_spec_partial`, `UCopy.umovestr_peek_count`, `UCopy.umovestr_spec_partial`, `UCopy.upoken_fallback`, `UCopy.upoken_spec`, `Unwind.cache_bounds`, `Unwind.limit_exact`, `Unwind.stacks_empty_wrong`, `Unwind.stacks_exit_late`, `Unwind.stacks_fatal`, `Unwind.stacks_partial`, `Unwind.stacks_stale`, `Unwind.uWalk_eq`, `Unwind.unnamed_differs`, `Unwind.walk_limit`, `Unwind.walks_partial`, `Walk.decoder_choice`, `Walk.dents_summary`, `Walk.dents_walk`, `Walk.netlink_all`, `Walk.nlattr_all`, `Xlat.printflags_or`, `Xlat.printflags_zero`, `Xlat.printxvals_eq`, `Xlat.searchEqOrLess_floor`, `Xlat.sprintflags_or`, `Xlat.sprintflags_zero`, `Xlat.xlookup_eq`, `Xlat.xrlookup_eq`, `Xlat.xrlookup_xlookup`.
