{"id": "C01", "title": "Numeric option arguments are parsed exactly", "statement": "Converting an option argument to an unsigned number succeeds exactly when the text is optional blanks, an optional sign, one or more decimal digits whose value lies in [0,max], followed by the end of the text or by a character from the caller's list of accepted terminators; the result is that value and the reported end is the first unread character. Everything else is rejected with -1.", "quantifier": "every input byte string, every maximum, every terminator list", "why_tests_cant": "The input space is all strings; overflow, sign, blank and terminator handling interact.", "anchors": ["src/string_to_uint.c:string_to_uint_ex", "src/string_to_uint.h"]}
{"id": "C02", "title": "A number set behaves as a mathematical set under every history", "statement": "After any sequence of add, invert and clear operations on a number set, asking whether n is in the set gives the answer a mathematical set of naturals put through the same operations would give, for every n, however large the numbers that were added.", "quantifier": "every history of operations, every query", "why_tests_cant": "Unbounded histories, growing storage and a complement flag interact; tests sample a few sequences.", "anchors": ["src/number_set.c:add_number_to_set", "src/number_set.c:is_number_in_set", "src/number_set.c:invert_number_set_array", "src/number_set.c:clear_number_set_array"]}
{"id": "C03", "title": "The 'everything is selected' shortcut is sound", "statement": "When strace decides that a selection (for example of syscall statuses) is complete and therefore skips filtering, every number of the domain really is selected.", "quantifier": "every history of set operations, every domain size", "why_tests_cant": "Depends on the complement flag together with a population count over an arbitrary history.", "anchors": ["src/number_set.c:is_complete_set", "src/number_set.c:is_complete_set_array", "src/strace.c:init", "src/syscall.c:syscall_entering_trace"]}
{"id": "C04", "title": "Filter expressions denote the documented set", "statement": "A qualifier list such as 'a,b,!c' denotes what the manual says: each leading '!' complements the result, 'none' and 'all' are the empty and the full set, and otherwise a number is selected iff one of the comma-separated tokens selects it; a malformed token rejects the whole expression.", "quantifier": "every qualifier string, every token decoder", "why_tests_cant": "Strings are unbounded, and inversion, special words and tokenisation interact.", "anchors": ["src/filter_qualify.c:qualify_tokens", "src/filter_qualify.c:qualify", "src/basic_filters.c:qualify_syscall_tokens"]}
{"id": "C05", "title": "Syscall selection resolves numbers, names and personality suffixes correctly", "statement": "In a syscall set expression a numeric token selects exactly that syscall number in every personality in which it is valid, a name selects exactly the numbers carrying that name, an '@pers' suffix restricts the selection to that personality, and an unknown token is an error unless it is prefixed with '?'.", "quantifier": "every syscall table, every token", "why_tests_cant": "Quantifies over all tables and tokens.", "anchors": ["src/basic_filters.c:qualify_syscall", "src/basic_filters.c:qualify_syscall_number", "src/basic_filters.c:qualify_syscall_name"]}
{"id": "C06", "title": "The when= expression is parsed as documented", "statement": "when=F[..L][+[S]] is accepted exactly for 1<=F<=65535, F<=L<=65534, 1<=S<=65535 and nothing else, and yields exactly that first, last and step (absent L means no upper limit, absent '+' with no range means once, '+' without S means 1).", "quantifier": "every expression string", "why_tests_cant": "All strings; several optional parts and numeric limits.", "anchors": ["src/basic_filters.c:parse_inject_expression", "src/filter_qualify.c:parse_inject_token"]}
{"id": "C07", "title": "Fault injection hits exactly the requested invocations", "statement": "With when=F..L+S the k-th matching invocation is tampered with iff F<=k<=L and S divides k-F (S=0: only k=F; no L: no upper limit), counted from the moment the counter is created, for every k without bound.", "quantifier": "every F, L, S and every unbounded sequence of invocations", "why_tests_cant": "Counters are 16-bit and are mutated on each call: only induction covers all k.", "anchors": ["src/syscall.c:tamper_with_syscall_entering", "src/defs.h:inject_opts"]}
{"id": "C08", "title": "Injection decisions are independent between syscalls of a tracee", "statement": "Whether an injected return value or error is reported as applied for one syscall depends only on what was injected into that syscall, not on an injection made into an earlier syscall of the same tracee.", "quantifier": "every sequence of syscalls and injection settings", "why_tests_cant": "Depends on the flag state left over by an arbitrary history.", "anchors": ["src/syscall.c:tamper_with_syscall_entering", "src/syscall.c:tamper_with_syscall_exiting", "src/syscall.c:syscall_exiting_finish"]}
{"id": "C09", "title": "Quoted strings can be decoded back to the exact bytes", "statement": "The C-style quoted form that strace prints for a byte buffer decodes, by the rules of C string literals, to exactly the bytes that were printed, in every quoting mode (plain, non-ASCII-hex, all-hex), so that two different buffers never print alike.", "quantifier": "every byte sequence of any length, every quoting style", "why_tests_cant": "Escapes interact with the following byte (octal digits); all sequences are needed.", "anchors": ["src/util.c:string_quote"]}
{"id": "C10", "title": "Quoting never overruns its output buffer", "statement": "The number of bytes written when quoting n bytes never exceeds the buffer size the callers allocate for n bytes.", "quantifier": "every byte sequence, every quoting style", "why_tests_cant": "Worst cases depend on content.", "anchors": ["src/util.c:string_quote", "src/util.c:print_quoted_string_ex", "src/util.c:printstr_ex"]}
{"id": "C11", "title": "A string printed without an ellipsis is complete", "statement": "When a NUL-terminated string is printed with a length limit, the output is followed by '...' if and only if the string was longer than the limit; otherwise the whole string was printed.", "quantifier": "every tracee string, every limit", "why_tests_cant": "Boundary between exactly-fitting and truncated strings.", "anchors": ["src/util.c:string_quote", "src/util.c:printstr_ex"]}
{"id": "C12", "title": "A flag word is printed as names that OR to the value", "statement": "The symbolic form of a flags word lists table names and at most one residual number such that the OR of everything listed is exactly the value, and each listed name is entirely contained in the value.", "quantifier": "every flag value, every lookup table", "why_tests_cant": "64-bit values over arbitrary tables with overlapping entries.", "anchors": ["src/xlat.c:printflags_ex", "src/xlat.c:sprintflags_ex"]}
{"id": "C13", "title": "Constant lookup does not depend on how the table is stored", "statement": "Looking a value up in a constant table gives the same name whether the table is stored as a plain list, as a sorted list (binary search) or as an index, namely the name of an entry having exactly that value, and no name iff there is none.", "quantifier": "every table meeting the storage kind's contract, every 64-bit value", "why_tests_cant": "Binary search over arbitrary tables and values.", "anchors": ["src/xlat.c:xlookup", "src/xlat.c:xlat_search_eq_or_less"]}
{"id": "C14", "title": "Time arithmetic is exact and normalised", "statement": "Adding, subtracting and dividing time stamps agrees with integer arithmetic on nanoseconds and comparisons agree with integer comparison, and results are normalised, for all normalised inputs, including subtraction of a later from an earlier time.", "quantifier": "every pair of normalised time stamps", "why_tests_cant": "All pairs including negative differences.", "anchors": ["src/util.c:ts_add", "src/util.c:ts_sub", "src/util.c:ts_div", "src/util.c:ts_cmp", "src/util.c:ts_min", "src/util.c:ts_max"]}
{"id": "C15", "title": "The in-kernel syscall filter selects exactly the traced syscalls", "statement": "For every syscall table and every selection, running the installed seccomp program on any architecture and any number of that architecture's table stops the tracee iff that syscall is selected for tracing under that architecture's personality; calls of an unknown architecture always stop it; both program generators agree on all of these.", "quantifier": "every selection, every architecture list, every syscall number", "why_tests_cant": "Generated program has relative jumps whose targets depend on the whole selection.", "anchors": ["src/filter_seccomp.c:linear_filter_generator", "src/filter_seccomp.c:binary_match_filter_generator"]}
{"id": "C16", "title": "Generated seccomp programs are well formed", "statement": "Every jump of a generated (non-overflowing) program goes forward and lands inside the program, so it always terminates with a return instruction; no placeholder offset is left behind.", "quantifier": "every selection and table", "why_tests_cant": "Offsets are 8-bit and patched afterwards.", "anchors": ["src/filter_seccomp.c:replace_jmp_placeholders", "src/filter_seccomp.c:linear_filter_generator", "src/filter_seccomp.c:binary_match_filter_generator"]}
{"id": "C17", "title": "Syscall entry and exit handling alternates under seccomp filtering", "statement": "Whichever order the kernel uses for its seccomp and syscall-entry stops, each traced syscall is handled by exactly one entry and one exit step, in that order, and the tracee is restarted with the operation that makes the next stop happen.", "quantifier": "every sequence of kernel stops consistent with the ptrace protocol", "why_tests_cant": "Unbounded interleavings of stop kinds; the order is detected at run time.", "anchors": ["src/strace.c:dispatch_event", "src/filter_seccomp.c:seccomp_filter_restart_operator", "src/strace.c:trace_syscall"]}
{"id": "C18", "title": "The trie is a total map", "statement": "A trie created with any valid geometry returns for each key the last value stored for it and the empty value for keys never stored; keys out of range are rejected and change nothing; iteration over a key range visits, in increasing order and once each, keys of the range with their current values, among them every key ever stored; a key it skips has the empty value.", "quantifier": "every geometry, every history of stores, every key and range", "why_tests_cant": "Bit-packed nodes; all geometries and histories.", "anchors": ["src/trie.c:trie_create", "src/trie.c:trie_set", "src/trie.c:trie_get", "src/trie.c:trie_iterate_keys"]}
{"id": "C19", "title": "Reading tracee memory returns the tracee's bytes", "statement": "A successful read of n bytes at an address yields exactly the n bytes the tracee has there, whether they come from the page cache or from the kernel, for every earlier sequence of reads since the tracee stopped; a failed read is reported as failure.", "quantifier": "every memory map, every history of reads between two stops", "why_tests_cant": "Cache contents depend on history.", "anchors": ["src/ucopy.c:vm_read_mem", "src/ucopy.c:umoven", "src/ucopy.c:invalidate_umove_cache"]}
{"id": "C20", "title": "Reading a tracee string stops at the first NUL", "statement": "Reading a string of at most len bytes yields the tracee's bytes up to and including the first NUL if it is among the first len bytes, and otherwise all len bytes reporting that no NUL was seen; the result count tells where the NUL is.", "quantifier": "every memory content, alignment and limit", "why_tests_cant": "Page and word boundary handling depends on alignment of address and length.", "anchors": ["src/ucopy.c:umovestr", "src/ucopy.c:umovestr_peekdata"]}
{"id": "C21", "title": "Poking memory changes only the requested bytes", "statement": "Writing a byte sequence into the tracee changes exactly the requested address range and leaves all neighbouring bytes as they were, for every alignment and every length below 2^32-1 (a poke rule gives at most 1024 bytes).", "quantifier": "every address alignment, length and memory", "why_tests_cant": "Word-granular writes with partial first and last words.", "anchors": ["src/ucopy.c:upoken", "src/ucopy.c:upoken_pokedata"]}
{"id": "C22", "title": "A tracee is found by its pid exactly when it is being traced", "statement": "Looking a pid up returns the record of the tracee currently having that pid, or nothing if there is none, whatever was looked up, attached, dropped or renamed before.", "quantifier": "every history of attach, drop, rename and lookup", "why_tests_cant": "A direct-mapped cache of stale pointers sits in front of the table.", "anchors": ["src/strace.c:pid2tcb", "src/strace.c:alloctcb", "src/strace.c:droptcb", "src/strace.c:maybe_switch_tcbs"]}
{"id": "C23", "title": "The count of traced processes is exact", "statement": "The number of tracees strace believes it has equals the number of records in use after every history; a new tracee never takes over a record in use and the table grows when it is full.", "quantifier": "every history of attach and drop", "why_tests_cant": "Unbounded histories, reuse of records.", "anchors": ["src/strace.c:alloctcb", "src/strace.c:droptcb", "src/strace.c:expand_tcbtab"]}
{"id": "C24", "title": "Lines of different tracees are never mixed", "statement": "In a shared log every line holds output of one tracee only and begins with that tracee's leader, for every interleaving of events; a call interrupted by another tracee's output is closed with '<unfinished ...>'.", "quantifier": "every interleaving of output events of any number of tracees", "why_tests_cant": "All schedules.", "anchors": ["src/strace.c:printleader", "src/strace.c:line_ended", "src/strace.c:set_current_tcp", "src/syscall.c:syscall_exiting_trace"]}
{"id": "C25", "title": "Interrupted calls are resumed exactly once", "statement": "A call whose line was closed by '<unfinished ...>' is completed by exactly one '<... name resumed>' line of the same tracee when it returns, and a call that was not interrupted is completed on its own line.", "quantifier": "every interleaving of events", "why_tests_cant": "All schedules.", "anchors": ["src/strace.c:printleader", "src/syscall.c:print_syscall_resume"]}
{"id": "C26", "title": "Wait statuses are classified completely", "statement": "Each wait status of a tracee is mapped to the event kind the ptrace protocol assigns to it: exit, kill, signal-delivery stop with its signal, group stop, syscall stop, seccomp stop, exec, exit and vfork/clone stops; nothing is dropped.", "quantifier": "every wait status word, every tracee state", "why_tests_cant": "Status words and state flags combine.", "anchors": ["src/strace.c:next_event"]}
{"id": "C27", "title": "Signals reach the tracee unchanged", "statement": "A tracee stopped for delivery of a signal is restarted with that same signal; any other stop restarts it with no signal; strace's own SIGSTOP is not delivered.", "quantifier": "every sequence of stops of a tracee to which no injection rule applies", "why_tests_cant": "Depends on the attach state and event kind for all histories.", "anchors": ["src/strace.c:dispatch_event", "src/strace.c:next_event"]}
{"id": "C28", "title": "strace exits as its child did", "statement": "When the traced command exits with a code strace exits with that code; when it is killed by a signal strace kills itself by that signal; other tracees do not influence this.", "quantifier": "every history of exit events, every status", "why_tests_cant": "Last-writer logic over event histories.", "anchors": ["src/strace.c:print_exited", "src/strace.c:print_signalled", "src/strace.c:terminate", "src/strace.c:next_event"]}
{"id": "C29", "title": "exec from a thread transfers the identity", "statement": "When a non-leader thread execs, its record takes over the leader's pid and the leader's old record is dropped, so there is exactly one record for that pid and no other tracee is affected.", "quantifier": "every tracee table and event", "why_tests_cant": "Two records and pending events are rewired.", "anchors": ["src/strace.c:maybe_switch_tcbs", "src/strace.c:next_event", "src/strace.c:dispatch_event"]}
{"id": "C30", "title": "Pending events are never lost or attributed to a freed tracee", "statement": "Every event collected from the kernel in one batch is dispatched exactly once, per tracee in the order collected, and to a tracee that is still being traced.", "quantifier": "every batch of wait results", "why_tests_cant": "Intrusive lists and dropped records interact.", "anchors": ["src/strace.c:next_event"]}
{"id": "C31", "title": "Detaching leaves no trace on the tracee", "statement": "When strace detaches, a signal that was about to be delivered is delivered, strace's own SIGSTOP is not, and the tracee is not left stopped by strace.", "quantifier": "every state in which a detach is requested, every sequence of stops seen while waiting", "why_tests_cant": "Depends on a race between stops.", "anchors": ["src/strace.c:detach_or_interrupt_or_stop", "src/strace.c:detach_interrupted_or_stopped", "src/strace.c:cleanup"]}
{"id": "C32", "title": "Netlink message decoding stays in bounds and terminates", "statement": "For every message buffer content the decoder visits a finite sequence of headers, each lying wholly inside the buffer, at increasing non-overlapping offsets, and stops.", "quantifier": "every buffer content, address and length including address wrap-around", "why_tests_cant": "Attacker-controlled lengths.", "anchors": ["src/netlink.c:decode_netlink", "src/netlink.c:decode_nlmsghdr_with_payload"]}
{"id": "C33", "title": "Netlink attribute decoding stays in bounds and terminates", "statement": "For every attribute buffer the decoder visits a finite sequence of attributes inside the buffer; each attribute's payload handed to a decoder lies inside the buffer.", "quantifier": "every buffer content, address and length", "why_tests_cant": "Attacker-controlled lengths.", "anchors": ["src/nlattr.c:decode_nlattr", "src/nlattr.c:decode_nlattr_with_data"]}
{"id": "C34", "title": "Ancillary data decoding stays in bounds and terminates", "statement": "For every control-message buffer the decoder makes progress at each element, reads only inside the buffer and stops.", "quantifier": "every buffer content and length", "why_tests_cant": "Attacker-controlled lengths with word rounding.", "anchors": ["src/msghdr.c:decode_msg_control"]}
{"id": "C35", "title": "Directory entry decoding stays in bounds and terminates", "statement": "For every getdents buffer the decoder visits entries inside the buffer at increasing offsets, stops, and reports the number of entries visited; a trailing '+' iff bytes were left over.", "quantifier": "every buffer content and length", "why_tests_cant": "Record lengths come from the buffer.", "anchors": ["src/xgetdents.c:decode_dents"]}
{"id": "C36", "title": "Array printing covers exactly the readable prefix", "statement": "Printing an array of n elements prints the elements in order from the first, stops at the element limit, at the first unreadable element or at the end, and marks the output as incomplete iff elements were left out; size and address overflow are never read through.", "quantifier": "every array size, element size, address, memory", "why_tests_cant": "Overflow guards and limits interact.", "anchors": ["src/util.c:print_array_ex"]}
{"id": "C37", "title": "Vector I/O output is limited to the transferred bytes", "statement": "For a readv-like call that transferred r bytes the data shown for the vector elements are in total min(r, sum of lengths) bytes, assigned to the elements in order as the kernel does; in the hex dump likewise.", "quantifier": "every vector, every r", "why_tests_cant": "Running remainder over an arbitrary vector.", "anchors": ["src/io.c:print_iovec_klong", "src/util.c:dumpiov_upto"]}
{"id": "C38", "title": "Hex dumps reproduce the data", "statement": "The hex columns of a dump, read back, give exactly the dumped bytes in order, with correct offsets, for any length, including across the internal chunk boundary.", "quantifier": "every byte sequence", "why_tests_cant": "Chunking and line layout over all lengths.", "anchors": ["src/util.c:dumpstr"]}
{"id": "C39", "title": "Signal sets are printed faithfully", "statement": "The printed form of a signal mask lists exactly the signals in the mask, or after '~' exactly those not in it, and the printer never exceeds its static buffer.", "quantifier": "every mask of every supported width, every verbosity", "why_tests_cant": "2^64 masks and three styles.", "anchors": ["src/signal.c:sprintsigmask_n", "src/util.c:next_set_bit"]}
{"id": "C40", "title": "Bit search finds the next set bit", "statement": "Searching a bit array from a position returns the least set bit at or after the position and below the size, or -1 if there is none.", "quantifier": "every bit array, position and size", "why_tests_cant": "All arrays; byte and endianness handling.", "anchors": ["src/util.c:next_set_bit"]}
{"id": "C41", "title": "The select result text is well formed and bounded", "statement": "The result text of select lists the ready descriptors in balanced brackets and never exceeds its static buffer.", "quantifier": "every descriptor set and count", "why_tests_cant": "Depends on which sets are empty and on how many descriptors are ready.", "anchors": ["src/desc.c:decode_select"]}
{"id": "C42", "title": "Call statistics equal the history", "statement": "In -c output the number of calls and errors and the total, minimum and maximum time of each syscall equal those of the history of completed calls (time less the configured overhead, not below zero), and the totals row is the sum over rows.", "quantifier": "every history of completed syscalls whose numbers fit the counters (fewer than 2^33 calls, times below 2^61 s each and 2^62 s in total)", "why_tests_cant": "Unbounded accumulation.", "anchors": ["src/count.c:count_syscall", "src/count.c:call_summary_pers"]}
{"id": "C43", "title": "Statistics are sorted by the chosen column", "statement": "The comparison used for sorting orders rows by decreasing value of the chosen column for all values.", "quantifier": "every pair of counters", "why_tests_cant": "64-bit counters.", "anchors": ["src/count.c:count_cmp", "src/count.c:error_cmp", "src/count.c:time_cmp"]}
{"id": "C44", "title": "A delayed tracee is always woken up", "statement": "Whenever some tracee is held back by a delay injection, the timer is armed for a time no later than that tracee's deadline, and each tracee is released at or after its deadline and never before.", "quantifier": "every history of delays, timer expirations and tracee exits", "why_tests_cant": "One shared timer serves any number of deadlines.", "anchors": ["src/delay.c:delay_tcb", "src/delay.c:arm_delay_timer", "src/strace.c:restart_delayed_tcbs"]}
{"id": "C45", "title": "Stack trace address lookup finds the mapping", "statement": "For every content of the maps file, looking an address up returns the stored mapping containing it and nothing iff no stored mapping contains it; stored mappings are ascending and do not overlap.", "quantifier": "every maps content, every address", "why_tests_cant": "Binary search over arbitrary contents.", "anchors": ["src/mmap_cache.c:mmap_cache_rebuild_if_invalid", "src/mmap_cache.c:mmap_cache_search"]}
{"id": "C46", "title": "Environment changes apply as documented", "statement": "After -E options the command's environment gives each changed variable its last assigned value or no value if it was last removed, and leaves all others as they were; the constructed vector never overflows.", "quantifier": "every environment, every list of changes", "why_tests_cant": "Arbitrary environments with duplicates and odd entries.", "anchors": ["src/strace.c:make_env", "src/strace.c:add_to_env", "src/strace.c:remove_from_env"]}
{"id": "C47", "title": "Kernel versions are compared correctly", "statement": "Comparing detected kernel release codes orders kernel releases as versions.", "quantifier": "every release string", "why_tests_cant": "Components are not bounded by one byte.", "anchors": ["src/strace.c:get_os_release"]}
{"id": "C48", "title": "Intrusive lists behave as sequences", "statement": "Insert, append, remove, replace and the head/tail operations on the intrusive doubly linked lists act as the corresponding operations on the represented sequence, and traversal visits exactly its elements in order.", "quantifier": "every history of list operations over any number of lists", "why_tests_cant": "Pointer rewiring over all shapes.", "anchors": ["src/list.h:list_insert", "src/list.h:list_append", "src/list.h:list_remove", "src/list.h:list_replace"]}
{"id": "C49", "title": "Growing arrays never overflow silently", "statement": "Growing a dynamic array strictly increases its capacity and the byte size requested equals capacity times element size without wrap-around, or strace reports out of memory.", "quantifier": "every capacity and element size", "why_tests_cant": "Arithmetic corner cases at the top of size_t.", "anchors": ["src/xmalloc.c:xgrowarray", "src/xmalloc.c:xreallocarray"]}
{"id": "C50", "title": "Injected values keep their identity", "statement": "The return value (or delay) attached to an injection rule is the one given on the command line for that rule, however many rules are defined; too many rules is a reported error, never a mix-up.", "quantifier": "every sequence of rule definitions", "why_tests_cant": "16-bit indices into growing vectors.", "anchors": ["src/retval.c:retval_new", "src/retval.c:retval_get", "src/delay.c:alloc_delay_data", "src/delay.c:fill_delay_data"]}
{"id": "C51", "title": "Only syscalls with a selected status are shown", "statement": "With a status filter a completed syscall's text appears in the log, whole, iff its status is selected, and otherwise nothing of it appears.", "quantifier": "every history of calls and statuses", "why_tests_cant": "Staging, unfinished calls and leaders interact.", "anchors": ["src/syscall.c:syscall_exiting_trace", "src/stage_output.c:strace_close_memstream", "src/strace.c:print_event_exit"]}
{"id": "C52", "title": "The syscall limit counts printed syscalls", "statement": "With a limit of N, strace detaches after exactly N syscalls were shown.", "quantifier": "every history of calls", "why_tests_cant": "Counts over arbitrary filtered histories.", "anchors": ["src/syscall.c:syscall_exiting_trace", "src/strace.c:dispatch_event"]}
{"id": "C53", "title": "Syscall numbers are (un)shuffled consistently", "statement": "The number shown for a syscall and the number used internally are related by a bijection, so that every syscall number in a trace denotes exactly one syscall.", "quantifier": "every number", "why_tests_cant": "Whole integer range, several ABI bases.", "anchors": ["src/linux/arm/shuffle_scno.c", "src/syscall.c:shuffle_scno"]}
{"id": "C54", "title": "Pid translation between namespaces is right when it answers", "statement": "When a pid of a tracee's namespace is translated, the answer is the id strace's own namespace gives to a process which has the given id in the tracee's namespace, whatever is in the caches.", "quantifier": "every namespace hierarchy, every cache content", "why_tests_cant": "Caches may be stale in arbitrary ways.", "anchors": ["src/pidns.c:translate_pid", "src/pidns.c:translate_id_proc_pid"]}
{"id": "C55", "title": "File mode and clock tick numbers are printed exactly", "statement": "Printed clock-tick counts denote the tick count divided by the tick rate, exactly to the printed precision.", "quantifier": "every count and rate", "why_tests_cant": "All rates.", "anchors": ["src/util.c:print_ticks"]}
{"id": "C56", "title": "ioctl names are those of the command number", "statement": "Looking up an ioctl command yields exactly the table entries with that command number, first match first.", "quantifier": "every sorted table, every command", "why_tests_cant": "Binary search with duplicates.", "anchors": ["src/ioctl.c:ioctl_lookup", "src/ioctl.c:ioctl_next_match"]}
{"id": "C57", "title": "Quoted strings are printable ASCII", "statement": "Whatever bytes a tracee passes, the text strace prints for a quoted string consists of printable ASCII characters only (no control characters, newlines or terminal escapes), in every -x mode; characters a caller asks to be escaped never appear raw.", "quantifier": "every byte string, every style, every escape set", "why_tests_cant": "256^n strings; tests quote a handful of samples.", "anchors": ["src/util.c:string_quote", "src/print_utils.h:sprint_byte_oct"]}
{"id": "C58", "title": "-x and -xx choose hex exactly as documented", "statement": "With -xx every string is printed as \\xHH throughout; with -x a string is printed so iff it contains a byte that is neither printable ASCII nor a blank in 9..13, and otherwise exactly as without the option.", "quantifier": "every byte string, with and without NUL termination", "why_tests_cant": "Depends on every byte of the string and on the position of the terminator.", "anchors": ["src/util.c:string_quote"]}
{"id": "C59", "title": "Time constants mean what they say", "statement": "A time given as an integer with an optional unit (s, ms, us, ns; microseconds without a unit) denotes exactly that many units, for all values up to the largest accepted integer, and text with an unknown unit is rejected.", "quantifier": "every argument text in integer form", "why_tests_cant": "Values and texts are unbounded in number; conversions near the limits and odd unit spellings are not all testable.", "anchors": ["src/util.c:parse_ts", "src/util.c:str2timescale_ex"]}
{"id": "C60", "title": "Calls beyond the syscall table are never filtered out by the kernel", "statement": "Under kernel-side filtering, a call whose number is beyond strace's table for that architecture still stops the tracee, so that a selection given by exclusion shows it exactly as it does without kernel-side filtering.", "quantifier": "every table, every selection, every number beyond the table", "why_tests_cant": "Depends on which of two program generators gives the shorter program for the selection.", "anchors": ["src/filter_seccomp.c:linear_filter_generator", "src/filter_seccomp.c:binary_match_filter_generator", "src/filter_seccomp.c:check_seccomp_filter_properties"]}
{"id": "C61", "title": "Poked memory is what strace shows afterwards", "statement": "After a successful poke of a tracee, later reads of that memory by strace in the same stop, hence the arguments it prints, give the poked bytes.", "quantifier": "every poke and every earlier sequence of reads in the stop", "why_tests_cant": "Depends on what was read before the poke.", "anchors": ["src/ucopy.c:upoken", "src/ucopy.c:vm_read_mem", "src/poke.c:poke_tcb", "src/syscall.c:syscall_entering_trace"]}
{"id": "C62", "title": "An injected signal reaches the tracee", "statement": "When a signal injection applies to a system call, the tracee is resumed from the entry of that call with the given signal, whatever else is injected into the same call.", "quantifier": "every signal, every combination with other injections, every tracee state", "why_tests_cant": "Depends on how the stop is resumed: at once or after a delay.", "anchors": ["src/syscall.c:tamper_with_syscall_entering", "src/strace.c:dispatch_event", "src/strace.c:restart_delayed_tcb"]}
{"id": "C63", "title": "Summary columns are those asked for", "statement": "--summary-columns=LIST shows exactly the columns named, in the order given and each once, always with the name of the system call; a name that is unknown or names a column already given is an error; no list of any length sets more columns than there are.", "quantifier": "every option value", "why_tests_cant": "The values are unbounded strings; the bound on the array depends on duplicates being rejected under all aliases.", "anchors": ["src/count.c:set_count_summary_columns", "src/count.c:column_aliases"]}
{"id": "C64", "title": "Poke rules keep their data", "statement": "Each rule with poke_enter or poke_exit writes exactly its own data: the arguments and bytes given for that rule at that point, each argument once, however many rules there are and wherever the allocator puts memory; a rule giving data for the same argument and point twice is refused.", "quantifier": "every list of poke rules, every placement of memory", "why_tests_cant": "Depends on the number of rules given and on whether the allocator moves a growing array; small tests never make it grow.", "anchors": ["src/poke.c:alloc_poke_data", "src/poke.c:poke_add", "src/poke.c:poke_tcb", "src/list.h", "src/xmalloc.c:xgrowarray"]}
{"id": "C65", "title": "Stack traces use the current mappings", "statement": "Whenever a stack of a tracee is shown, addresses are looked up in the mappings the tracee has at that time: changes of mappings by any tracee, ends of tracees and reuse of their records never leave an old map in use.", "quantifier": "every history of mapping changes, ends and uses by any number of tracees", "why_tests_cant": "Depends on a generation counter shared by all tracees and on the order of events.", "anchors": ["src/mmap_cache.c:mmap_cache_rebuild_if_invalid", "src/mmap_cache.c:mmap_cache_invalidate"]}
{"id": "C66", "title": "Path and descriptor selection shows the calls that name the files asked for", "statement": "With -P and --trace-fds a system call is selected exactly if one of its arguments is a descriptor asked for or referring to a path asked for, or a path name asked for, as given on the command line or in canonical form; this includes descriptors in the sets of select (first 2^20), in the array of poll (first 2^20) and in the argument blocks of old calls.", "quantifier": "every system call of the x86_64 and i386 tables, all arguments, tracee memory, open files and selections", "why_tests_cant": "There are hundreds of calls with their own argument layouts and unboundedly many memory contents; a call missing from one list is only seen if that very call is tried with the right argument.", "anchors": ["src/pathtrace.c:pathtrace_match_set", "src/pathtrace.c:pathtrace_select_set", "src/pathtrace.c:match_xselect_args", "src/linux/x86_64/syscallent.h", "src/linux/i386/syscallent.h"]}
{"id": "C67", "title": "Descriptor paths are those of the files", "statement": "The path strace attributes to a descriptor is the name of the file it refers to, and it is marked as deleted exactly if that name was removed, even if the name itself ends in ' (deleted)'.", "quantifier": "every descriptor, file name and state of the file system", "why_tests_cant": "Names are arbitrary bytes; the kernel's mark can be part of a name.", "anchors": ["src/pathtrace.c:get_proc_pid_fd_path", "src/pathtrace.c:getfdpath_pid"]}
{"id": "C68", "title": "Names shown for signals and errors are accepted back", "statement": "For every architecture, a text given for a signal is accepted exactly if it is the decimal number of a signal below the architecture's limit or its name, in any letter case, with or without SIG; a text given for an error exactly if it is its number or its name in any letter case. The name strace itself shows for a number is accepted and means that number.", "quantifier": "every text and every number, for every architecture's table", "why_tests_cant": "Names overlap (SIG prefixes, real-time signals such as SIGRT_1, aliases, digits at the start), and the tables differ between architectures; tests try one architecture and a few names.", "anchors": ["src/util.c:sigstr_to_uint", "src/filter_qualify.c:find_errno_by_name", "src/signal.c:signame", "src/syscall.c:err_name"]}
{"id": "C69", "title": "-p attaches to exactly the processes listed", "statement": "The argument of -p is read as numbers separated by blanks, tabs, newlines and commas: each is attached to once in the order given; if any word is not a positive process number or is strace's own, strace refuses to run.", "quantifier": "every argument text", "why_tests_cant": "Texts are unbounded; runs of separators, separators at the ends and signs are easily lost.", "anchors": ["src/strace.c:process_opt_p"]}
{"id": "C70", "title": "The program run is the one the shell would run", "statement": "A program name containing a slash is used as a path; any other is the first executable file among the entries of PATH in order, an empty entry meaning the current directory; entries too long for a path name are passed over and no memory outside the path buffer is touched.", "quantifier": "every name, PATH value, current directory and set of executable files", "why_tests_cant": "PATH lengths and contents are arbitrary; the buffer is reused between entries, so that what an earlier entry left there may matter.", "anchors": ["src/strace.c:startup_child"]}
{"id": "C71", "title": "Poke data mean the bytes written down", "statement": "poke_enter= and poke_exit= accept comma separated @argN=HEX with N from 1 to 7, each argument at most once and whole bytes; the bytes stored are those spelt, in order; other texts are refused.", "quantifier": "every text", "why_tests_cant": "Payloads are of any length; scanf accepts more than digits.", "anchors": ["src/filter_qualify.c:parse_poke_token"]}
{"id": "C72", "title": "An injection expression means the set of calls and all of its tokens", "statement": "-e inject=SET:TOKENS and -e fault=SET:TOKENS give every call of SET in every personality the rule made of all tokens, in any order, and leave every other call as it was; a token that is malformed, unknown, repeated or contradicts another (error and retval), and an inject expression without action, are refused; a fault without action injects ENOSYS.", "quantifier": "every expression text, every previous state of the rules, every set of syscall tables", "why_tests_cant": "Token combinations, orders and sets are unbounded; the tables of several personalities are updated together.", "anchors": ["src/filter_qualify.c:parse_inject_token", "src/filter_qualify.c:parse_inject_expression", "src/filter_qualify.c:qualify_inject_common", "src/filter_qualify.c:parse_inject_common_args"]}
{"id": "C73", "title": "-e NAME=VALUE sets the option named, anything else is a trace set", "statement": "-e with one of the documented names or abbreviations followed by '=' sets exactly that option to the rest of the text; any other text, even with '=' in it, is taken as a set of calls to trace.", "quantifier": "every text", "why_tests_cant": "Several names are prefixes of others (trace, trace-fd, t).", "anchors": ["src/filter_qualify.c:qualify"]}
{"id": "C74", "title": "The text after a call tells its outcome as the kernel had it", "statement": "The text after the closing parenthesis of a call has one reading: the call returned a value, failed with an error, was interrupted and may be restarted, or has no result. That reading is the outcome the kernel left in the tracee: failed, with that very error, exactly if the call can fail and the signed result is -4095..-1; otherwise returned with the value that was in the register (as a number of the tracee's word size, process ids as 32 bits). It holds whatever else is on the line: paths after descriptors, the decoder's string, injection and delay notes, elapsed time.", "quantifier": "all register values, personalities of the x86_64 build, both ways of reading the result, all result formats, all decorations, all tables of error names", "why_tests_cant": "a test sees a few return values; sign extension, the boundary of errors and the absence of ambiguity concern all of them", "anchors": ["src/syscall.c:get_error", "src/syscall.c:syscall_exiting_trace", "src/syscall.c:print_err_ret", "src/linux/x86_64/get_error.c:arch_get_error", "src/negated_errno.h:is_negated_errno"]}
{"id": "C75", "title": "The elapsed time shown is the time between the clock readings", "statement": "With -T or --syscall-times=UNIT the number between the brackets is the difference between the clock readings at entry and exit, cut (not rounded) to the number of decimals of the unit; exactly that many decimals are shown, and an unknown unit is refused.", "quantifier": "all pairs of valid clock readings in order, all texts of the option", "why_tests_cant": "borrow between seconds and nanoseconds, and padding of the fraction, concern all pairs", "anchors": ["src/syscall.c:syscall_exiting_trace", "src/util.c:ts_sub", "src/util.c:str2timescale_ex", "src/strace.c:init"]}
{"id": "C76", "title": "64-bit arguments are shown as the program passed them", "statement": "For every supported kind of tracee, each call that takes a 64-bit offset, length, cookie or mask is shown with the values that the program passed, although in a 32-bit process such a value takes two registers, in an order and at positions that depend on the architecture; and the system call table has as many arguments as the call takes registers.", "quantifier": "every kind of tracee, byte order, call with a 64-bit argument, and value", "why_tests_cant": "64-bit values times register conventions times calls; a test runs on one architecture", "anchors": ["src/util.c:getllval", "src/util.c:print_arg_lld", "src/util.c:print_arg_llu", "src/io.c:print_lld_from_low_high_val", "src/fadvise.c", "src/sync_file_range.c", "src/fallocate.c"]}
{"id": "C77", "title": "A multiplexed call is shown as the call it stands for", "statement": "socketcall and ipc are shown under the name of the call the kernel performs, with the arguments of that call in the order of the manual, wherever they come from (registers or memory); numbers that stand for no call are left alone; and the value shown for a multiplexed shmat is the address stored in memory.", "quantifier": "every call number and version, all register values and all contents of memory, on entry and on exit", "why_tests_cant": "all register values and memory contents, which may change between entry and exit; a test tries some calls", "anchors": ["src/syscall.c:decode_socket_subcall", "src/syscall.c:decode_ipc_subcall", "src/linux/generic/subcallent.h", "src/ipc_msg.c", "src/ipc_sem.c", "src/ipc_semctl.c", "src/ipc_shm.c", "src/strace.c:set_tcb_priv_data"]}
{"id": "C78", "title": "strace's own code is not shown", "statement": "Of the process that strace starts, no call is shown and none is tampered with before the program runs, but for the exec calls themselves, which are shown if they pass the filters; after an exec that fails the process is hidden again, signals included. From the successful exec on, and for processes attached to from the start, the filters alone decide.", "quantifier": "all histories of calls of the process, any number of failed execs, any filter", "why_tests_cant": "Histories are unbounded and the state lives across calls; tests start a program that can be executed, with one exec call that passes the filters.", "anchors": ["src/syscall.c:syscall_entering_trace", "src/syscall.c:syscall_exiting_decode", "src/strace.c:print_stopped", "src/strace.c:dispatch_event"]}
{"id": "C79", "title": "-b execve detaches at the right program", "statement": "With -b execve a process started by strace is detached when it runs its second program, a process attached to when it runs its first; every call up to that is reported and none after it.", "quantifier": "all histories of calls, with failed and successful execs anywhere", "why_tests_cant": "The first exec of a started process is an exception that must be used up exactly once, whatever fails before.", "anchors": ["src/strace.c:dispatch_event", "src/strace.c:startup_child"]}
{"id": "C80", "title": "The name shown for a task is the one it has", "statement": "With --decode-pids=comm the name shown with a process ID is the name the task has after every exec and PR_SET_NAME it made.", "quantifier": "all histories of calls, traced or filtered out, failed or not", "why_tests_cant": "The cached name depends on every call before; a test sees one order of calls.", "anchors": ["src/syscall.c:syscall_exiting_decode", "src/strace.c:maybe_load_task_comm"]}
{"id": "C81", "title": "The bytes dumped are the bytes transferred", "statement": "With -e write=set and -e read=set, exactly the data of calls on descriptors of the set are dumped: for calls that send, the bytes they were asked to send; for calls that get data and succeed, as many bytes as they got, from the buffers in their order. Nothing is dumped for other calls.", "quantifier": "all calls, descriptors, sets, vectors and arrays of messages", "why_tests_cant": "Vectors and arrays of messages have any length and results cut them anywhere.", "anchors": ["src/syscall.c:dumpio", "src/util.c:dumpiov_upto", "src/msghdr.c:dumpiov_in_msghdr", "src/mmsghdr.c:dumpiov_in_mmsghdr"]}
{"id": "C82", "title": "A word that packs several parts can be read back from what is shown", "statement": "For an argument or field that packs several parts into one word (flags of mmap, memfd_create, mount, clone, shmget, msgget, semget and open; the type of a socket; the argument of personality; the operation of FUTEX_WAKE_OP; the types of netlink attributes and netfilter messages; the number of ipc; the tone of a console; the config of hardware and cache events; the operand of a seccomp return; terminal flags; codes of filter statements; quota commands; I/O priorities; device numbers), in each of the three styles of -X, the text without its comments is an expression of C (constants, numbers, |, << and the macros of the system's headers), and its value is the word of the traced process.", "quantifier": "All words, all three styles, all tables whose names stand for their values", "why_tests_cant": "A word has 2^16 to 2^64 values; the decoders take it apart with masks and shifts, drop parts that are 0 and join the others with bars, and a lost part shows only for particular combinations. Tests use a few words.", "anchors": ["src/mem.c:print_mmap_flags", "src/memfd_create.c:SYS_FUNC(memfd_create)", "src/mount.c:SYS_FUNC(mount)", "src/futex.c:do_futex", "src/clone.c:SYS_FUNC(clone)", "src/ipc_shm.c:SYS_FUNC(shmget)", "src/ipc_msg.c:SYS_FUNC(msgget)", "src/ipc_sem.c:SYS_FUNC(semget)", "src/net.c:tprint_sock_type", "src/personality.c:SYS_FUNC(personality)", "src/nlattr.c:print_nlattr", "src/netlink.c:decode_nlmsg_type_netfilter", "src/ipc.c:SYS_FUNC(ipc)", "src/kd_ioctl.c:kd_mk_tone", "src/perf.c:print_perf_event_attr", "src/bpf_seccomp_filter.c:print_seccomp_filter_k", "src/term.c:decode_oflag", "src/term.c:decode_cflag", "src/bpf_filter.c:print_bpf_filter_code", "src/open.c:tprint_open_modes64", "src/quota.c:print_qcmd", "src/ioprio.c:print_ioprio", "src/print_dev_t.c:print_dev_t"]}
{"id": "C83", "title": "A wait status is shown as what it means, and can be read back", "statement": "The status word stored by wait4 or waitpid is shown as exit with its code, death by its signal with or without a core dump, stop by its signal (with the mark of a system call stop and the ptrace event, if any) or continuation, according to how the kernel makes the word; and the parts shown determine the word, for words the kernel does not make as well.", "quantifier": "All 2^32 status words", "why_tests_cant": "The word is taken apart by overlapping masks; unusual combinations (events, marks, bits outside) occur only with traced children or bad memory.", "anchors": ["src/wait.c:printstatus"]}
{"id": "C84", "title": "The result of poll lists the ready descriptors", "statement": "After poll or ppoll returned a positive number, the text after the result lists the elements with events in the order of the array, each with its descriptor and its events, as many as the limit and a buffer of 1024 bytes allow; dots stand for the rest and the address of an element that cannot be read is shown; the time left is appended; and the text never exceeds its buffer, whatever the array and the texts of the flags are.", "quantifier": "every array, number of elements, content of memory, limit, text of flags and of the time left", "why_tests_cant": "Boundary lengths of the text and elements that become unreadable can only be sampled by tests; that no content writes past the buffer must hold for all.", "anchors": ["src/poll.c: decode_poll_exiting", "src/util.c: sequence_truncation_needed"]}
{"id": "C85", "title": "Arguments and environment of execve", "statement": "The strings of argv are shown in order in brackets, all of them up to NULL if not abbreviating and at most the limit otherwise; dots are shown exactly if strings are left out or if the array has no readable end, in which case the address of the first word that cannot be read is shown too; when abbreviating, the number of environment variables is exact, and marked as unterminated exactly if the array has no NULL.", "quantifier": "every content of memory, word size, address, also at the end of the address space, and limit", "why_tests_cant": "Arrays of every length, with faults and wrap-around at every position, cannot be enumerated.", "anchors": ["src/execve.c: printargv, printargc, decode_execve"]}
{"id": "C86", "title": "Lists of the device mapper stay within their data", "statement": "For every content of the tracee's memory the decoding of device mapper tables, device lists, version lists, dependencies and messages ends, structures are shown only at offsets where they fit into the data, in increasing order without overlap, and strings are limited by the end of the data; a well-formed list is shown completely and in order.", "quantifier": "every memory content, data_start, data_size, target_count and chain of next offsets, for loading and for reading", "why_tests_cant": "The offsets come from the tracee: loops, overlaps and overflows of chained offsets of any length are not enumerable.", "anchors": ["src/dm.c: dm_decode_dm_target_spec, dm_decode_dm_target_deps, dm_decode_dm_name_list, dm_decode_dm_target_versions, dm_decode_dm_target_msg, dm_decode_string"]}
{"id": "C87", "title": "Structures that carry their size are shown as the kernel sees them", "statement": "For openat2, mount_setattr, setxattrat, listmount and statmount, clone3, sched_setattr, sched_getattr and perf_event_open: whatever the size given and the bytes of the structure are, the text is a well-formed structure in which each field the structure has is shown once, under its name and with the value the kernel takes from it (bytes beyond the size counting as 0), fields the structure does not have are not shown, the only fields left out are the ones the call ignores or that are 0, and bytes after the fields strace knows are shown, or marked as left out, if and only if they may matter.", "quantifier": "every size, content of the structure, address, page size and string limit; abbreviated or not; with or without an error", "why_tests_cant": "Every combination of a size, of which fields are present, and of flag bits that choose what is shown; tests use a handful of published sizes.", "anchors": ["src/open.c: print_open_how", "src/mount_setattr.c: print_mount_attr", "src/xattr.c: print_xattr_args", "src/listmount.c: print_mnt_id_req", "src/statmount.c: print_mnt_id_req", "src/clone.c: SYS_FUNC(clone3)", "src/sched.c: print_sched_attr", "src/perf.c: fetch_perf_event_attr, print_perf_event_attr", "src/util.c: print_nonzero_bytes"]}
{"id": "C88", "title": "Socket addresses are shown with the values of their fields", "statement": "Wherever a call passes or returns a socket address, each field of the address is shown with the value it has at its place in the structure of its family, and nothing else is shown under its name; a reserved field that is 0 may be left out. Paths are shown up to their NUL, abstract names, hardware addresses and digipeaters with all their bytes; a string or an array that goes beyond the address is marked with `...`. An address of an unknown family or too short for its family is shown with all its bytes, one that is absent, unreadable or shorter than a family as a number. A returned address is taken from no more bytes than the kernel wrote and there was room for, both lengths are shown if they differ. The text of an AX.25 address determines its bytes. No input makes the decoder read beyond its buffer.", "quantifier": "all address lengths, contents, families, memories of the tracee, sizes of its words and settings of -X, --secontext and abbreviation", "why_tests_cant": "There are 2^1024 addresses and 17 layouts with nested, variable and truncated parts; tests use a few well-formed addresses per family, and none of them can show that no address reads beyond the buffer.", "anchors": ["src/sockaddr.c: print_sockaddr, decode_sockaddr, sa_printers, print_sockaddr_data_*, ax25_addr2str, check_ax25_address", "src/net.c: decode_sockname, SYS_FUNC(recvfrom), fetch_socklen", "src/msghdr.c: print_struct_msghdr", "src/util.c: string_quote"]}
{"id": "C89", "title": "Addresses in control messages are read within the message", "statement": "An address that the kernel passes in a control message is shown from the bytes of that message only: no byte beyond the control data is read, and no byte of another message or of padding is shown as a part of the address.", "quantifier": "all control data, all lengths of the message, all families", "why_tests_cant": "The difference is in bytes behind the message, which a test does not control and does not look at.", "anchors": ["src/msghdr.c: print_cmsg_ip_origdstaddr, decode_msg_control", "src/sockaddr.c: print_sockaddr, print_sockaddr_data_in6, print_sockaddr_data_un", "src/util.c: string_quote"]}
{"id": "C90", "title": "Sets passed as arrays of bits are shown with exactly their members", "statement": "A CPU set, a set of event codes returned by an input device and an ICMP filter are shown with their members in ascending order, no others and none missing; a CPU set longer than what is read ends in `...`, an abbreviated set of event codes shows its first four members and `...` if there are more; a filter with more than half of its bits set is shown by the bits that are not. A node mask is shown by the words that hold its bits, neither fewer nor more. On big-endian machines bits are counted within words.", "quantifier": "all memory contents, addresses, lengths, return values, both byte orders and word sizes", "why_tests_cant": "there are 2^n sets of n bits, times lengths, alignments and byte orders; tests use a few", "anchors": ["src/affinity.c print_affinitylist", "src/evdev.c decode_bitset", "src/evdev.c bit_ioctl", "src/net.c print_icmp_filter", "src/numa.c print_nodemask", "src/util.c next_set_bit"]}
{"id": "C91", "title": "Signal information is shown with the members the kernel has set", "statement": "For a signal and a code exactly those members of siginfo_t are shown that the kernel sets for them (sender, timer, file, address and its details, child status, system call), with their values at their places in the structure; the error is shown unless it is 0, a queued value is left out only if it is 0; a code is named after the codes common to all signals or those of the signal itself.", "quantifier": "all contents of a siginfo_t, for 32- and 64-bit tracees", "why_tests_cant": "128 bytes with a layout that depends on two of the numbers in them; most combinations are not produced by a test program", "anchors": ["src/printsiginfo.c printsiginfo", "src/printsiginfo.c print_si_info", "src/printsiginfo.c printsiginfo_at", "src/printsiginfo.c print_si_code"]}
{"id": "C92", "title": "Details of a socket are those of that socket", "statement": "With -yy a socket is shown with what the kernel says of its inode: addresses and ports of both ends, or protocol and port, or peer and name; never with the details of another inode, whatever else has been shown and however the kernel groups its answers into datagrams; if what the kernel says of the inode does not change, it is what is shown. No answer makes strace read beyond what it received.", "quantifier": "all histories of requests and all answers of the kernel", "why_tests_cant": "needs all interleavings of inodes that share a place in the cache and all ways of splitting an answer, and malformed answers no kernel test can provoke", "anchors": ["src/socketutils.c get_sockaddr_by_inode", "src/socketutils.c receive_responses", "src/socketutils.c inet_parse_response", "src/socketutils.c unix_parse_response", "src/socketutils.c netlink_parse_response", "src/util.c get_inode_of_socket_path", "src/util.c printsocket"]}
{"id": "C93", "title": "Netlink messages are decoded by the family of their socket", "statement": "The family by which a message of a netlink socket is decoded is the protocol of the socket, for all protocols and ports; the names of families of generic netlink are those the kernel lists, for all lists and attributes.", "quantifier": "all protocols, ports and lists of families", "why_tests_cant": "protocols and families depend on the kernel that runs; their names could be prefixes of each other", "anchors": ["src/netlink.c get_fd_nl_family", "src/socketutils.c genl_families_xlat", "src/socketutils.c genl_parse_families_response", "src/dyxlat.c dyxlat_add_pair"]}
{"id": "C94", "title": "Calls are read as the kernel has them", "statement": "For every history of stops of any number of tracees, mixed in any order, each system call is shown with the mode (64-bit, 32-bit or x32), the number and the arguments with which the kernel executes it, and its result in the mode of the call, whichever way strace gets them: PTRACE_GET_SYSCALL_INFO, PTRACE_GETREGSET or PTRACE_GETREGS.", "quantifier": "all sequences of stops of all tracees, all register contents, all three ways of reading, including a second read at the same stop and reads that fail", "why_tests_cant": "The mode in force is one global variable shared by all tracees and changed by reading, by showing a line and by switching tracees; a test shows a few tracees in one order with the kernel at hand.", "anchors": ["src/syscall.c:get_scno", "src/syscall.c:get_syscall_args", "src/syscall.c:get_syscall_regs", "src/syscall.c:strace_get_syscall_info", "src/syscall.c:get_regs", "src/linux/x86_64/getregs_old.c:getregs_old", "src/linux/x86_64/get_scno.c:arch_get_scno", "src/linux/x86_64/get_syscall_args.c:arch_get_syscall_args", "src/linux/x86_64/arch_get_personality.c:get_personality_from_syscall_info"]}
{"id": "C95", "title": "Messages about modes tell the mode of every line", "statement": "Unless they are turned off, the messages 'Process PID=N runs in M mode' let a reader know the mode of every line: each line about a call, a result or a stop of a tracee has been decoded in the mode told last for that tracee, and no message repeats what has been told.", "quantifier": "all sequences of events of all tracees and all answers of the kernel, right or wrong", "why_tests_cant": "The messages are printed in the middle of reading a call, which itself changes the tracee being shown; only an invariant over all histories excludes that a line is decoded in a mode not announced.", "anchors": ["src/syscall.c:update_personality", "src/syscall.c:set_personality", "src/strace.c:set_current_tcp", "src/strace.c:printleader", "src/strace.c:alloctcb", "src/strace.c:startup_tcb"]}
{"id": "C96", "title": "Messages and vectors of messages are shown as transferred", "statement": "What is shown of a message passed to sendmsg or received by recvmsg, and of every message of a vector passed to sendmmsg or received by recvmmsg, is what the members of its header in the tracee's memory say: the name with its length (limited, for a received message, to the room given on entering, with both lengths if they differ), the buffers, each with the bytes transferred to it (those received in all, filling the buffers in order), the control data and flags, and for a vector the number of bytes transferred for exactly the messages that were transferred. Messages are shown in order from the first; those not shown because of the limit of array elements, the 1024 the kernel handles, or unreadable memory are marked by an ellipsis, with the address if it is unreadable memory. A failed recvmmsg shows the address, a timed out one an empty vector.", "quantifier": "every memory on entering and on exiting, both word sizes, every vector address and length, number of messages transferred and setting of the limits", "why_tests_cant": "A test covers a few vectors of well-formed messages; how name lengths saved on entering are paired with messages on exiting, and the bytes with buffers, depends on every length, unreadable address and count, including counts beyond what was saved.", "anchors": ["src/mmsghdr.c: print_struct_mmsghdr, save_mmsgvec_namelen, decode_mmsgvec, sendmmsg, do_recvmmsg", "src/msghdr.c: print_struct_msghdr, decode_msghdr, sendmsg, recvmsg", "src/io.c: print_iovec_klong, tprint_iov_upto", "src/util.c: print_array_ex"]}
{"id": "C97", "title": "Options mean together what they say", "statement": "For every list of options, in any order and with any repetition: options that exclude each other, or need something that is not there, end strace with a message; otherwise strace runs with exactly what the options say: where lines go, what is counted, which processes are followed, whether a filter in the kernel is used, what happens on exit, which messages are suppressed, how times, strings and paths are shown, and every option that has no effect is told. The order matters only among options of which the last one counts.", "quantifier": "all lists of options, all environments (program given or not, root or not, kernel support)", "why_tests_cant": "tests try a few combinations; the claim ranges over all lists of some fifty options", "anchors": ["src/strace.c: init", "src/strace.c: parse_ts_arg"]}
{"id": "C98", "title": "The beginning of a line says which process and when", "statement": "For every combination of -f, -t, -r, -n, -i and -Y, every process number, name, time, system call number and instruction pointer: what a line begins with can be read back, and gives exactly the process number, name, time of day (to the precision asked for), time since the line before, call number and instruction pointer; what was not asked for is not there.", "quantifier": "all combinations of the options, all events, all clock readings", "why_tests_cant": "tests look at a few lines; the claim is that no combination of widths, signs and precisions can be misread", "anchors": ["src/strace.c: printleader", "src/strace.c: print_comm_str", "src/print_instruction_pointer.c: print_instruction_pointer"]}
{"id": "C99", "title": "Relative timestamps add up", "statement": "For every sequence of lines in a file with -r: the first line shows zero, and every other line shows the time that passed since the line before it in the file, so that the sum of the differences up to a line is the time since the first line.", "quantifier": "all sequences of lines, of any number of processes and files, all clock readings", "why_tests_cant": "depends on the whole history of lines, on which of them are published and to which file", "anchors": ["src/strace.c: printleader", "src/strace.c: printrelts"]}
{"id": "C100", "title": "A stack trace follows the line it belongs to", "statement": "For every history of a process traced with -k: strace does not end because of it, and after the line of every call that is shown come the frames of its stack (as it was on entering for execve and exit, otherwise on leaving), in order and before anything else about the process; after the line of a signal those of the stack when it came; no stack is shown without its line.", "quantifier": "all histories of calls, signals, changes of personality and exits, all sets of statuses asked for, all stacks", "why_tests_cant": "depends on the whole history: a stack that was captured waits in a queue until a line is printed that may never be", "anchors": ["src/unwind.c: unwind_tcb_print", "src/unwind.c: unwind_tcb_capture", "src/unwind.c: queue_print", "src/syscall.c: syscall_entering_trace", "src/syscall.c: syscall_exiting_trace", "src/strace.c: print_event_exit", "src/strace.c: droptcb"]}
{"id": "C101", "title": "What a stack trace shows of an address is current", "statement": "For every history of stack walks and changes of mappings: the frames that are shown are those of the stack, in order, each with what is known about its address at the time of the walk, whatever was shown before; at most as many as the limit, with a note exactly if there are more or the stack cannot be followed.", "quantifier": "all histories of walks and changes of mappings, all stacks and limits, all contents of the cache", "why_tests_cant": "a cache can go stale in ways that depend on the order of events and on which addresses share a bucket", "anchors": ["src/unwind-libdw.c: find_bucket", "src/unwind-libdw.c: frame_callback", "src/unwind-libdw.c: tcb_walk", "src/unwind-libunwind.c: walk"]}
{"id": "C102", "title": "The traced program inherits exactly the descriptors strace was started with", "statement": "For every set of descriptors open when strace is started and every kind of output, the program has exactly those descriptors (what was closed stays closed, nothing of strace's is added); a command the output is piped to has them too but for its standard input; strace gives up its own standard input and output and never writes its output to a standard descriptor it was not given.", "quantifier": "every initial descriptor table, every output destination, daemonized or not, every later history of opening and closing by strace", "why_tests_cant": "Depends on which of the standard descriptors happen to be closed and on the order of allocation; tests run with all of them open.", "anchors": ["src/strace.c:ensure_standard_fds_opened", "src/strace.c:redirect_standard_fds", "src/strace.c:open_dummy_desc", "src/strace.c:strace_popen", "src/strace.c:strace_fopen", "src/strace.c:exec_or_die"]}
{"id": "C103", "title": "-u runs the program as that user, or not at all", "statement": "With -u, if the program is executed then its real user and group are those named, its effective ones those or the owner's of a set-id file, its supplementary groups exactly those of the user (none for UID:GID), and nothing of root's is left; an argument with a colon is accepted exactly when it is two identifiers; and root can run every program so, whatever is traced and however.", "quantifier": "every argument, user database, file mode and owner, set of traced calls, with and without --seccomp-bpf and -D", "why_tests_cant": "Needs root, set-id files and all orders of privilege changes and filter installation.", "anchors": ["src/strace.c:is_uid_gid_pair", "src/strace.c:exec_or_die", "src/strace.c:startup_child", "src/filter_seccomp.c:init_seccomp_filter"]}
{"id": "C104", "title": "Attaching at startup: each process named is traced once, with its threads", "statement": "For every list of -p (repetitions and threads of each other included), every program started besides and every outcome of the attempts: afterwards strace has exactly one record per process it traces; each process named is traced unless it is strace itself or attaching fails, which is reported; with -f its listed threads are too; nothing else is; the announced numbers add up; and the walk over the growing table ends.", "quantifier": "every list of processes, directory contents, and pattern of failures and interruptions", "why_tests_cant": "Combinations of repeated and overlapping processes with failing attempts, while the table grows under the loop.", "anchors": ["src/strace.c:startup_attach", "src/strace.c:attach_tcb", "src/strace.c:process_opt_p_list", "src/strace.c:alloctcb", "src/strace.c:droptcb"]}
{"id": "C105", "title": "What -y and -yy show of a descriptor is what it refers to", "statement": "With the kinds of decoration chosen, a descriptor is shown with the file, the device and its number, the counter and identifier of the eventfd, the process of the pidfd, the signals of the signalfd, or the details of the socket it refers to, as the kernel reports them in /proc; a kind that was not chosen falls back to the path; nothing is shown when nothing is known; and the text can be read back to the same facts.", "quantifier": "every process and descriptor, every content of the fdinfo file with the relevant line anywhere in it, every choice of kinds, every counter, mask, path, device number", "why_tests_cant": "The facts are picked out of /proc files whose other lines vary with kernel and descriptor; a test sees the few files of one kernel.", "anchors": ["src/util.c:printfd_pid_with_finfo", "src/util.c:scan_fdinfo_lines", "src/util.c:printdev", "src/util.c:printeventfd", "src/util.c:printpidfd", "src/util.c:printsignalfd", "src/pidfd_getfd.c", "src/ioctl.c"]}
{"id": "C106", "title": "The exit reason shown for KVM_RUN is that of the vCPU that ran", "statement": "With -e kvm=vcpu, what is shown after a successful KVM_RUN is the exit reason in the kvm_run structure of the virtual CPU the descriptor refers to, after any history of creating virtual CPUs, mapping, unmapping, closing and running; it is shown whenever the structure is mapped and the mappings can be read.", "quantifier": "every history of calls of a tracee, every layout of its mappings, every exit reason", "why_tests_cant": "strace keeps what it found out across calls; whether that is still right depends on everything that happened since.", "anchors": ["src/kvm.c:vcpu_get_info", "src/kvm.c:vcpu_register", "src/kvm.c:kvm_ioctl_decode_run", "src/mmap_cache.c"]}
{"id": "C107", "title": "What a decoder keeps on entering is what it gets on exiting", "statement": "For every tracee and every history of its calls: the number or the object a decoder keeps when a call is entered is what it gets when that call is left, whatever was kept by earlier calls, calls with unknown numbers and calls that were never left; a call that kept nothing gets nothing; nothing is released twice or with the function of another owner; when the tracee is gone everything kept was released.", "quantifier": "every allocator, way of getting hold of the tracee, and history of calls", "why_tests_cant": "the slot is shared by several users and its state depends on the whole history of the tracee; a test sees one history", "anchors": ["src/strace.c: set_tcb_priv_data, get_tcb_priv_data, free_tcb_priv_data, droptcb, startup_tcb", "src/syscall.c: get_scno, decode_ipc_subcall, syscall_exiting_finish, free_sysent_buf", "src/ipc_semctl.c: SYS_FUNC(semctl)"]}
{"id": "C108", "title": "A filter program shown can be assembled back to the same program", "statement": "For every classic BPF program of at most 4096 instructions, attached to a socket, to seccomp or otherwise, and in every style of constants: reading what is shown as C, with the constants of the kernel's headers, gives exactly the instructions of the program; of a longer program the beginning is shown and marked as such; the same for every eBPF program.", "quantifier": "every program, purpose and style of constants", "why_tests_cant": "there are 2^64 instructions; each field is taken apart into names and rests by masks that depend on the class", "anchors": ["src/bpf_filter.c: print_bpf_filter_code, print_bpf_filter_stmt, print_bpf_filter_jump, print_bpf_filter_block", "src/bpf_seccomp_filter.c: print_seccomp_filter_k", "src/bpf_sock_filter.c: print_sock_filter_k", "src/bpf.c: print_ebpf_insn, print_ebpf_prog"]}
{"id": "C109", "title": "What PTRACE_GET_SYSCALL_INFO answers is tested before it is relied on, and shown as far as it was written", "statement": "At startup strace takes PTRACE_GET_SYSCALL_INFO for supported exactly if, in a run of its test child, every answer was the expected one: the initial stop without a system call, chdir(\"\") failing with ENOENT, gettid returning the child's pid and exit_group entered, with all six arguments, and then exit status 0; in every other case it does not rely on it, and whenever the test gives an answer the child is no more, either because it ended or because it was killed and waited for. When a tracee uses the request itself, the members shown are exactly those that were transferred as a whole, with the values transferred, reserved members and flags only if they are not zero, and rval as an error exactly if is_error was transferred and is not zero.", "quantifier": "all sequences of wait results and answers; all contents and lengths, and all lengths given by the tracee and the kernel", "why_tests_cant": "the tests run on kernels that answer correctly and print a few lengths", "anchors": ["src/ptrace_syscall_info.c:test_ptrace_get_syscall_info", "src/ptrace_syscall_info.c:print_ptrace_syscall_info", "src/ptrace_syscall_info.c:print_psi_entry", "src/ptrace_syscall_info.c:print_psi_seccomp", "src/ptrace_syscall_info.c:print_psi_exit"]}
{"id": "C110", "title": "Records packed one after another are all shown, and nothing beyond them is read", "statement": "The security contexts that lsm_get_self_attr returns and the items that a btrfs tree search returns lie in a buffer one after another, each with its own length. All of them are shown, in order, each with its members and (for contexts) with exactly its text; with a limit on abbreviated output the first ones and a mark; what follows the last one and is no record is marked. Whatever the buffer holds, decoding ends after at most one structure for every 32 bytes, and neither what is shown nor how far the decoder goes depends on memory outside the buffer.", "quantifier": "all lists of records, addresses, limits and remainders; all memory contents, record lengths and item counts", "why_tests_cant": "lengths come from memory that the tracee or another thread may change; tests use a few buffers", "anchors": ["src/lsm.c:decode_lsm_ctx_sequence", "src/lsm.c:decode_lsm_ctx", "src/lsm.c:fetch_lsm_ctx_header", "src/btrfs.c:decode_search_arg_buf", "src/util.c:sequence_truncation_needed"]}
{"id": "C111", "title": "What is shown of a socket option is what was passed", "statement": "For getsockopt and setsockopt, what is printed for the option value stands for exactly the first bytes of the value: all of them if they fit the type of the option (integer, structure, array, set of ICMP types), and for values of no known type as many as the string limit allows, with dots exactly if something is left out. A structure of which the kernel returned only a part is shown up to where the part ends. Nothing depends on memory outside the value. The length of getsockopt is shown before and after the call if it changed; no value is shown of a failed call.", "quantifier": "all levels, options, lengths given and returned, string limits and contents of memory", "why_tests_cant": "There are dozens of options and any length can be given or returned for each; a test fixes the option, the length and the bytes.", "anchors": ["src/net.c:print_getsockopt", "src/net.c:print_setsockopt", "src/net.c:print_icmp_filter", "src/net.c:print_get_linger", "src/net.c:print_get_ucred", "src/print_fields.h:MAYBE_PRINT_FIELD_LEN", "src/print_group_req.c:print_group_req"]}
{"id": "C112", "title": "SELinux contexts belong to the file the call names and can be read back", "statement": "With --secontext, the text in brackets after a path or descriptor gives back the part of the context that was asked for (the type, or all of it with full, without newlines at the end) and, with mismatch, the recorded context exactly if it is known and that part of it differs; no bracket or mismatch mark inside a context can be taken for one outside it. A path is looked up in the directory in which the kernel looks it up for that call, whatever calls the process made before: through the process's own root if it is absolute, else in the directory of the descriptor or the current one; nothing is shown if the option was not given, if the pid is unknown or if the name is too long.", "quantifier": "all contexts (any bytes, any number of fields, newlines and colons anywhere), all recorded contexts, all settings of the option, all directories and paths, all histories of calls of a process", "why_tests_cant": "tests run on a machine with SELinux see a few contexts and one call at a time; that a directory of one call never leaks into the next is a claim about histories", "anchors": ["src/secontext.c:parse_secontext", "src/secontext.c:print_context", "src/secontext.c:selinux_getfdcon", "src/secontext.c:selinux_getfilecon", "src/open.c:print_dirfd", "src/syscall.c:syscall_exiting_finish"]}
{"id": "C113", "title": "What is printed of arguments is well formed whatever memory can be read", "statement": "For each decoder that prints part of an argument on entering a call and the rest on exiting, the text of the arguments of the finished call is well formed: every bracket is closed by one of its kind, every member name is followed by one value, members and arguments are separated by commas, the number of arguments is that of the call, and what follows \"=>\" is another value of the member before it. This holds whatever the memory of the process allows to be read on entering and again on exiting, whatever changed in between, and whether the call failed or not.", "quantifier": "all outcomes of reading memory on entering and on exiting, all results of the call, all lengths of arrays", "why_tests_cant": "The two halves of a line are printed by different invocations of a decoder with different views of the memory; tests use memory that is readable both times or neither.", "anchors": ["src/tee.c", "src/file_handle.c", "src/kd_ioctl.c", "src/kd_mpers_ioctl.c", "src/perf_ioctl.c", "src/sock.c", "src/v4l2.c", "src/sg_io_v3.c", "src/sg_io_v4.c", "src/scsi.c", "src/userfaultfd.c", "src/ptp.c", "src/rtc.c", "src/fs_f_ioctl.c", "src/fs_0x94_ioctl.c", "src/lsm.c", "src/sched.c", "src/ldt.c", "src/clone.c", "src/ioctl.c", "src/seccomp_ioctl.c"]}
{"id": "C114", "title": "--seccomp-bpf is used only where the kernel's order of stops is known", "statement": "With --seccomp-bpf, strace makes a child to find out in which order the kernel makes its seccomp stop and its syscall-entry stop. The filter is used just when not every call is traced, the kernel knows filters, a program could be made that is not too long, and the child was seen to make exactly the stops of one of the two orders and to exit with 0; the order strace goes by from then on is the one seen, and the program used is the shortest. The child never stays behind: it has ended, or it is killed and waited for. The program to be traced is started with the filter or not at all, and gives up gaining privileges only if the kernel asks for that.", "quantifier": "every sequence of wait results (stops, exits, signals, interruptions, errors), every result of the requests made, every set of generated programs", "why_tests_cant": "The order depends on the kernel strace runs on; a test sees one kernel and no failures of ptrace, waitpid or fork.", "anchors": ["src/filter_seccomp.c:check_seccomp_order_tracer", "src/filter_seccomp.c:check_seccomp_order", "src/filter_seccomp.c:check_seccomp_filter_properties", "src/filter_seccomp.c:check_seccomp_filter", "src/filter_seccomp.c:init_seccomp_filter"]}
{"id": "C115", "title": "The request of ioctl is shown by expressions that have its value", "statement": "In the short and the verbose style the request of ioctl is shown by one or more expressions: symbols, macros with arguments as in the headers of Linux (EVIOCGBIT(EV_KEY, 96), MIXER_READ(7)), or _IOC(...). Each of them has the value of the request, so that a program with that expression makes the same call. All symbols with that value are given, except that for a terminal only the terminal's symbol is given where sound devices have one of the same value. With the raw and the verbose style the number is shown.", "quantifier": "every request number, both encodings of requests, every table of symbols, every descriptor, every style", "why_tests_cant": "2^32 requests, and families of macros with sizes in them; tests try the sizes in use.", "anchors": ["src/ioctl.c:ioctl_decode_command_number", "src/ioctl.c:evdev_decode_number", "src/ioctl.c:hiddev_decode_number", "src/ioctl.c:ioctl_print_code", "src/ioctl.c:SYS_FUNC(ioctl)", "src/term.c:term_ioctl_decode_command_number"]}
{"id": "C116", "title": "Hardware addresses are shown as they are, whatever was shown before", "statement": "A hardware address (of an interface, a link, a neighbour, a multicast request) is shown as its bytes in hexadecimal with colons between them, so that the bytes can be read back; the length is that given in the message or the one the type of the device has. What is shown depends on nothing that was shown before. Printing never writes or reads beyond an array. With the raw and the verbose style, and for more bytes than any device has, all bytes are shown as a string.", "quantifier": "every sequence of addresses printed before, every address, length, device type and style", "why_tests_cant": "The text is made in a static buffer, so the outcome depends on the history; tests print one address at a time.", "anchors": ["src/print_mac.c:sprint_mac_addr", "src/print_mac.c:print_hwaddr", "src/print_mac.c:hwaddr_sizes", "src/nlattr.c:decode_nla_hwaddr", "src/rtnl_link.c:decode_ifla_hwaddr", "src/net.c:mr_address", "src/sock.c:print_ifr_hwaddr"]}
{"id": "C117", "title": "An error message of netlink shows the request it quotes and the attributes after it", "statement": "An NLMSG_ERROR message shows the error, the header of the request it answers, the rest of the request decoded as the message it is, and the attributes of the extended acknowledgement, each taken from where the kernel puts it. However messages are nested and whatever lengths they claim, what is shown follows one another without gap or overlap and is exactly the payload; nothing outside it is read, and the decoding ends.", "quantifier": "every memory, every message and length, every nesting of error messages, every answer of the kernel", "why_tests_cant": "Lengths in three nested headers and a flag interact; tests have a handful of messages.", "anchors": ["src/netlink.c:decode_nlmsgerr", "src/netlink.c:decode_payload", "src/netlink.c:decode_nlmsghdr_with_payload"]}
{"id": "C118", "title": "fcntl: a call is shown by itself, its input when it begins and its output when it has ended", "statement": "Of every fcntl or fcntl64 call, the third argument is shown once exactly if the command has one: arguments taken from the caller when the call begins, as they are then (also if the call blocks or never returns), memory that the call fills when it has ended, as it is then, and never after a failure; locks and owners are shown by the members of the structure of the traced program's layout; the result is shown as a descriptor exactly for the commands that make one, it is explained exactly for the commands that return flags, a lease or a signal, and what is shown of a call does not depend on the calls before it.", "quantifier": "every command word, argument, memory before and after, result, both layouts, and every history of calls", "why_tests_cant": "The result field of the traced thread holds the previous call's result while the next one is decoded on entering; a test sees one history, and the wrong decision is visible only after particular results.", "anchors": ["src/fcntl.c:print_fcntl", "src/fcntl.c:print_struct_flock64", "src/fcntl.c:print_f_owner_ex", "src/fetch_struct_flock.c:fetch_struct_flock", "src/syscall.c:syscall_exiting_trace"]}
{"id": "C119", "title": "A value shown without an ellipsis is complete, also where a final NUL is left out", "statement": "The value of an extended attribute, a key's description or a string of a netlink attribute, which strace shows without the NUL at its end, is complete whenever no \"...\" follows it: the bytes that the literal denotes are the value, or the value without its last NUL.", "quantifier": "every value, limit of -s, option -x or -xx, style of the decoders that leave out the NUL, and content of strace's buffer from before", "why_tests_cant": "the case depends on the byte at the limit of -s being NUL in a longer value", "anchors": ["src/util.c:string_quote", "src/util.c:printstr_ex", "src/xattr.c:print_xattr_val", "src/keyctl.c:keyctl_read_key", "src/nlattr.c:decode_nla_str"]}
{"id": "C120", "title": "Buffers that a call has filled are shown as far as they have been filled, and no further", "statement": "After a call that has written into a buffer of its caller, strace shows what has been written, all of it up to the limits of -s with \"...\" if there is more, and no other memory of the process; after a failed call it shows the address only. With a result that has been injected it shows nothing beyond the end of the buffer.", "quantifier": "every call of fifteen kinds (read and its like, recv, getcwd, getxattr, listxattr, keyctl's, msgrcv, getgroups, epoll_wait, io_getevents, lsm_list_modules, PTRACE_PEEKSIGINFO, listmount), content of memory, result and size allowed by the manual page", "why_tests_cant": "a test sees one result with one size; the memory behind what has been written differs from run to run", "anchors": ["src/io.c:SYS_FUNC(read)", "src/net.c:decode_sockbuf", "src/getcwd.c:SYS_FUNC(getcwd)", "src/xattr.c:decode_getxattr", "src/keyctl.c:keyctl_read_key", "src/keyctl.c:keyctl_pkey_op", "src/ipc_msg.c:SYS_FUNC(msgrcv)", "src/print_msgbuf.c:tprint_msgbuf", "src/uid.c:print_groups", "src/epoll.c:epoll_wait_common", "src/listmount.c:SYS_FUNC(listmount)", "src/util.c:print_array_ex"]}
{"id": "C121", "title": "Structures a call reads are shown as they were when it began, those it writes as it left them", "statement": "For calls that take structures in memory (timers, clocks, signals, limits, scheduling, children, the system): every argument is shown once, in order; a structure that the call reads is shown with its contents when the call began; one that the call has written with its contents when it ended; and of a pointer through which it has neither read nor written only the address.", "quantifier": "forty-five calls, all arguments, contents of memory before and after the call (also where the structures overlap), and all outcomes that the interface of the kernel allows", "why_tests_cant": "depends on the contents of memory at two times, on where mappings end, and on which of the errors means an interruption", "anchors": ["src/time.c:do_nanosleep", "src/time.c:do_clock_nanosleep", "src/time.c:do_adjtimex", "src/signal.c:decode_new_sigaction", "src/signal.c:print_sigset_addr_len_limit", "src/signal.c:do_rt_sigtimedwait", "src/wait.c:printwaitn", "src/wait.c:SYS_FUNC(waitid)", "src/resource.c:SYS_FUNC(prlimit64)", "src/sched.c:SYS_FUNC(sched_getparam)", "src/util.c:umoven_or_printaddr64", "src/syscall.c:is_erestart"]}
{"id": "C122", "title": "The text after a result explains that result", "statement": "The text in parentheses that follows the result of a call (the flags of F_GETFL, the descriptors of select, the name of a state) is made from this call of this thread: in every history of any number of threads it does not depend on calls before, and a call that has failed has none.", "quantifier": "all histories of beginnings and ends of calls of any number of threads, with other texts put into the shared buffers in between, and all calls whose results are explained", "why_tests_cant": "strace keeps a pointer per thread that is never cleared, into buffers that all threads share; a stale text shows only after a suitable call before, in a history that no test of a single call has.", "anchors": ["src/syscall.c:syscall_exiting_trace", "src/nsfs.c:nsfs_ioctl", "src/prctl.c:prctl", "src/fcntl.c:print_fcntl", "src/desc.c:decode_select", "src/poll.c:decode_poll_exiting", "src/mmsghdr.c", "src/clone.c", "src/xlat.c:sprintflags_ex"]}
{"id": "C123", "title": "prctl shows what the kernel is given and what it gives back", "statement": "The line of a prctl call shows the arguments in their order and without a gap; what the program gives is shown when the call begins, from memory as it is then, whether or not the call fails; what the kernel writes is shown when the call has ended, in full and from memory as it is then, or as an address if the call has failed; and two calls with the same option whose lines begin alike gave the kernel the same values in all arguments that it looks at. The same for arch_prctl.", "quantifier": "all options, known and unknown, all values of all five arguments, all contents and readability of memory before and after, and all outcomes", "why_tests_cant": "There are 70 options with their own rules for up to four 64-bit arguments each; tests have one or two values for each.", "anchors": ["src/prctl.c:prctl", "src/prctl.c:print_prctl_args", "src/prctl.c:arch_prctl"]}
{"id": "C124", "title": "Calls whose operation decides their arguments show what the operation looks at", "statement": "For futex, fsconfig, quotactl, quotactl_fd, keyctl and ptrace, whatever the operation, its arguments, the memory of the process and the outcome: every argument that the kernel looks at for this operation is shown in the way in which the kernel looks at it (numbers in full or their low 32 bits, strings, paths and structures that it reads as they were when the call began, structures and buffers that it fills as they are when it has succeeded, the address if they cannot be read); the arguments are shown in order, each once, with exactly one comma between two of them and none at the ends, although a part is printed when the call begins and a part when it ends; nothing that is shown is untrue of the arguments or of memory at the time it is printed; what is printed at the beginning does not depend on what comes later; an address in the user area (PTRACE_PEEKUSER, PTRACE_POKEUSER) is shown as the last named offset that is not above it plus the difference, and as a number below the first or above the last one.", "quantifier": "all operations (known or not), all argument values, all contents and readability of memory before and after the call, both outcomes, all values of -s, -e verbose on and off, all tables of offsets that are sorted", "why_tests_cant": "there are some 130 operations, each with its own arguments, and every combination of unreadable memory, failure and changed memory takes another path through two phases of printing", "anchors": ["src/futex.c:do_futex", "src/fsconfig.c:fsconfig", "src/quota.c:decode_cmd_data", "src/keyctl.c:keyctl", "src/ptrace.c:decode_ptrace_entering", "src/ptrace.c:decode_ptrace_exiting", "src/ptrace.c:print_user_offset_addr", "src/xlat.c:xlat_search_eq_or_less"]}
{"id": "C125", "title": "The summary of -c can be read back", "statement": "The summary is a table: a reader who takes the widths of the columns from the line of dashes and cuts every line there finds the titles asked for, one line for each system call that was called, in the order of sorting, showing its share of the time right to a hundredth of a percent, its times to the nearest microsecond, its average, its numbers of calls and errors and its name, and a last line showing the totals.", "quantifier": "all histories of calls (up to 99999 seconds in all), all names without blanks, all orders of the rows, all lists of columns", "why_tests_cant": "widths, rounding and alignment depend on every number in the table together; misalignment and floating point errors appear only for particular values", "anchors": ["src/count.c", "call_summary_pers", "num_chars", "src/util.c", "ts_float", "ts_div"]}
{"id": "C126", "title": "Calls about signals show the sets and actions that they read and fill", "statement": "For every call about signals (signal, sigaction, sigprocmask, sigpending, sigsuspend, sgetmask, ssetmask, the rt_ calls, kill, tkill, tgkill, the calls that queue a siginfo, pidfd_send_signal, rt_sigtimedwait), every program of 4 or 8 byte words and every contents of memory: all arguments are shown once and in order; sets, actions, siginfos and times that the call reads are shown as they were when it began, those that it fills as they were when it ended and not before, and only if it did not fail; the set, handler or signal that a call returns is shown with the result; what cannot be read is shown as an address.", "quantifier": "all calls about signals, word sizes, arguments, contents of memory before and after the call, results, and both settings of -e verbose", "why_tests_cant": "the state of memory at two moments, all lengths of sets and all places of structures relative to unreadable memory cannot be enumerated", "anchors": ["src/signal.c:print_sigset_addr_len_limit", "src/signal.c:decode_new_sigaction", "src/signal.c:decode_old_sigaction", "src/signal.c:do_rt_sigtimedwait", "src/signal.c:rt_sigprocmask", "src/signal.c:rt_sigpending", "src/signal.c:sigsuspend"]}
{"id": "C127", "title": "A time with a fraction is the time that is meant", "statement": "A time written with a decimal point or an exponent, and an optional unit, as for delay_enter, delay_exit and -O, is accepted exactly if it is a number that is not negative followed by a known unit, and denotes that many units to within a nanosecond and the precision of binary64; other text is rejected, and no text leads to undefined behaviour.", "quantifier": "all texts: all decimal numbers with any number of digits, all exponents and units, and all other text", "why_tests_cant": "rounding in three floating point operations, cutting off twice and every length of digits and exponent: a second or a nanosecond could be lost for particular numbers only", "anchors": ["src/util.c:parse_ts", "src/util.c:str2timescale_ex"]}
{"id": "C128", "title": "-f follows every child, and nobody else is followed", "statement": "With -f every task made by a traced task is traced from its first instruction on, whatever the order in which the kernel reports parents and children, unless it was made with CLONE_UNTRACED; strace takes up nobody else, says so for each one, leaves nobody in a stop, and ends when, and only when, all of them have gone. Without -f exactly the tasks named are traced, and a child that was made traced by CLONE_PTRACE is let go at its first stop.", "quantifier": "every set of tasks attached to, every interleaving of clones, deaths, first stops and their reports, every re-use of process numbers, with and without -f, PTRACE_SEIZE and -o '|command'", "why_tests_cant": "The order in which wait4 reports a child's first stop, its parent's clone and its parent's death is up to the scheduler; tests meet one order.", "anchors": ["src/strace.c:maybe_allocate_tcb", "src/strace.c:startup_tcb", "src/strace.c:next_event", "src/strace.c:ptrace_setoptions", "src/strace.c:after_successful_attach"]}
{"id": "C129", "title": "What bpf() shows of its attributes is what the kernel takes from them", "statement": "For every command, length and content of the attributes of bpf(): every byte that the kernel looks at and that is not zero can be told from what is shown - in a field, in a name, or in the data at the end that strace does not know; fields that are given in part are shown with zeros for the rest, as the kernel has them; everything shown is what the attributes are at that time; what the kernel writes is shown; if the attributes are not read, their address is shown; abbreviation takes only the data at the end.", "quantifier": "every command, every length up to a page and beyond, every content of the attributes before and after the call, readable or not", "why_tests_cant": "the length may end anywhere in the structure, 37 commands have their own layouts, and what is left out can only be seen by asking it of every byte", "anchors": ["src/bpf.c:bpf", "src/bpf.c:decode_attr_extra_data", "src/bpf_attr.h:BPF_PROG_LOAD_struct"]}
{"id": "C130", "title": "Calls about memory are shown with what the kernel is asked", "statement": "brk, the kinds of mmap, munmap, mprotect, mremap, madvise, msync, mlock2, mlockall, mincore, remap_file_pages, mseal, process_madvise and process_mrelease show each parameter in its place and as the number the kernel takes (int parameters with a sign, 32-bit ones without what the register holds beyond). The offset of mmap is shown in bytes whatever the unit of the call; the old forms of mmap are shown from the six words in memory, or as the address if these cannot be read; the new address of mremap is shown exactly if the flags make the kernel use it; the vector of mincore has one bit for each page that the length covers, up to the limit or to the first byte that cannot be read.", "quantifier": "every call of these kinds, all register contents, all contents of memory, both word sizes, all page sizes that are powers of two, all limits", "why_tests_cant": "Tests use a few addresses, lengths and flags on one architecture with one page size; they cannot cover all offsets and lengths, nor the kinds of mmap of other architectures.", "anchors": ["src/mem.c:brk", "src/mem.c:print_mmap", "src/mem.c:old_mmap", "src/mem.c:old_mmap_pgoff", "src/mem.c:mmap_pgoff", "src/mem.c:mmap_4koff", "src/mem.c:do_mprotect", "src/mem.c:mremap", "src/mem.c:mincore", "src/mem.c:process_madvise", "src/fetch_indirect_syscall_args.c:fetch_indirect_syscall_args", "src/util.c:print_array_ex"]}
{"id": "C131", "title": "Asynchronous requests and events are shown with what they ask and tell", "statement": "io_submit shows each of its requests in order, found through the array of addresses with words of the program's size, or the address of one that cannot be read. Of a request every field that the kernel looks at for its operation is shown with its value (zeros of optional fields left out), in the order of the structure, and nothing else; the buffer of a pwrite and the vectors of preadv and pwritev are shown in place of their addresses. io_getevents shows exactly the events returned, or the address after failure, and the timeout and signal set in both cases; io_setup the context made; io_cancel the request and the event.", "quantifier": "every call, all register contents, all contents of memory, both word sizes, all numbers of requests and events, all values of all fields", "why_tests_cant": "Tests submit a few requests with chosen operations; they cannot cover all combinations of fields, operations, unreadable requests and counts.", "anchors": ["src/aio.c:io_setup", "src/aio.c:tprint_lio_opcode", "src/aio.c:print_common_flags", "src/aio.c:iocb_is_valid", "src/aio.c:print_iocb_header", "src/aio.c:print_iocb", "src/aio.c:print_iocbp", "src/aio.c:io_submit", "src/aio.c:print_io_event", "src/aio.c:io_cancel", "src/aio.c:print_io_getevents", "src/util.c:print_array_ex", "src/defs.h:truncate_klong_to_current_wordsize"]}
{"id": "C132", "title": "A resource limit is shown exactly, in every style", "statement": "The text of a limit, whether it is a number, a product with 1024 or the name of infinity, and with or without a comment, denotes the limit and no other, for 64-bit and 32-bit limits. setrlimit shows the limits as they are when it begins, getrlimit as it has left them (the address after failure), prlimit64 both; limits have the width that the kernel uses for the program. getpriority and setpriority show the identifier by its kind, and the priority with its sign. The text of a product fits in its buffer.", "quantifier": "every limit of 4 and 8 bytes, every style, every call, all contents of registers and memory, all kinds of program", "why_tests_cant": "Tests show a few limits; the claim is about all 2^64 limits in three styles, and about buffers for every one of them.", "anchors": ["src/resource.c:print_rlim64_t", "src/resource.c:print_rlim32_t", "src/resource.c:print_rlimit64", "src/resource.c:print_rlimit32", "src/resource.c:decode_rlimit", "src/resource.c:getrlimit", "src/resource.c:setrlimit", "src/resource.c:prlimit64", "src/resource.c:priority_print_who", "src/resource.c:getpriority", "src/resource.c:setpriority"]}
{"id": "C133", "title": "Sockets, pairs and messages are shown with what the kernel is asked", "statement": "The protocol of socket is shown by a name that belongs to the family given (or as a number with the family's text for unknown ones); its number is the one that the kernel takes (for AF_PACKET in the order of the network), and different protocols of a family are shown differently. pipe, pipe2 and socketpair show the two descriptors they have made, or the address after failure. send and sendto show the message with its length, the flags, and the address with its length.", "quantifier": "every domain, type and protocol, all contents of registers and memory", "why_tests_cant": "Tests make sockets of some families and protocols; the claim is about all families and all numbers of protocols.", "anchors": ["src/net.c:socket", "src/net.c:decode_pair_fd", "src/net.c:do_pipe", "src/net.c:pipe", "src/net.c:pipe2", "src/net.c:socketpair", "src/net.c:send", "src/net.c:sendto", "src/xlat/inet_protocols.in:inet_protocols", "src/xlat/irda_protocols.in:irda_protocols", "src/xlat/can_protocols.in:can_protocols"]}
{"id": "C134", "title": "Rings are shown as asked for and as made, and comparisons with the right processes", "statement": "When io_uring_setup begins, its parameters are shown as the program gives them (flags, cpu and idle time of the thread, the ring to attach to exactly if the flags ask for it, reserved numbers if any is not zero); when it has succeeded, every member that the kernel fills is shown, with the value it then has; after a failure none of them is; whatever memory holds at the two moments, every structure that is opened is closed. io_uring_enter shows its set of signals exactly if its length is that of one and it can be read. kcmp shows the arguments that the type has, every descriptor as one of the process that it belongs to.", "quantifier": "all arguments, all contents of memory when the call begins and when it ends, all types", "why_tests_cant": "The members shown depend on contents of memory at two moments, each of which may be unreadable or changed by another thread; tests set up few rings and compare few pairs.", "anchors": ["src/io_uring.c:io_uring_setup", "src/io_uring.c:io_uring_enter", "src/io_uring.c:print_io_sqring_offsets", "src/io_uring.c:print_io_cqring_offsets", "src/kcmp.c:kcmp", "src/signal.c:print_sigset_addr_len"]}
{"id": "C135", "title": "What is registered with a ring is shown by operation, as given and as answered", "statement": "For every operation, io_uring_register shows the ring first (a descriptor, or a number exactly if the flag for registered rings is given), then the operation, and the number of arguments last and once. A structure that the kernel reads is shown as it is when the call begins, one that it fills as it is after success, and one that it reads and fills as both with an arrow between them (and only the first after a failure); all members have the places and types of the interface, and reserved ones are left out exactly if they are zero. A probe shows the operations that there are and for which there is room.", "quantifier": "all operations, all arguments, all contents of memory when the call begins and when it ends, success and failure", "why_tests_cant": "Thirty operations share one decoder that is called twice for some of them, depending on memory at two moments; tests register few structures and hardly ever change them during the call.", "anchors": ["src/io_uring.c:io_uring_register", "src/io_uring.c:print_io_uring_probe", "src/io_uring.c:print_ioring_register_napi", "src/io_uring.c:print_io_uring_buf_status", "src/io_uring.c:print_io_uring_sync_cancel_reg", "src/io_uring.c:print_io_uring_clone_buffers", "src/io_uring.c:print_io_uring_buf_reg"]}
