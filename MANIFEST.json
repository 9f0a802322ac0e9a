{
 "claims": [
  {
   "property": "C01",
   "status": "proved",
   "theorems": [
    "Strace.StringToUint.isDigit_iff",
    "Strace.StringToUint.isSpace_iff",
    "Strace.StringToUint.stringToUintEx_iff",
    "Strace.StringToUint.stringToUintEx_none_iff"
   ],
   "note": "exact grammar, both directions; strtoll is a libc contract written as a function"
  },
  {
   "property": "C02",
   "status": "proved",
   "theorems": [
    "Strace.NumberSet.numberSet_refines",
    "Strace.NumberSet.mem_add_of_cleared",
    "Strace.NumberSet.mem_invert",
    "Strace.NumberSet.isEmptySet_sound"
   ],
   "note": "refinement to Nat \u2192 Bool for every history"
  },
  {
   "property": "C03",
   "status": "partial",
   "theorems": [
    "Strace.NumberSet.isComplete_sound_partial",
    "Strace.NumberSet.isComplete_inverted_partial",
    "Strace.NumberSet.isComplete_unsound",
    "Strace.NumberSet.isComplete_incomplete"
   ],
   "note": "the full claim is false of the code (witness isComplete_unsound); proved exact for non-complemented sets"
  },
  {
   "property": "C04",
   "status": "proved",
   "theorems": [
    "Strace.Filter.qualifyTokens_meaning",
    "Strace.Filter.qualifyTokens_double_bang",
    "Strace.Filter.qualifyTokens_overwrites"
   ],
   "note": "for every decoder, previous content and string"
  },
  {
   "property": "C05",
   "status": "proved",
   "theorems": [
    "Strace.Filter.qualifySyscallTokens_meaning"
   ],
   "note": "for every table/designator/shuffle/regex configuration"
  },
  {
   "property": "C06",
   "status": "proved",
   "theorems": [
    "Strace.Inject.parseWhen_iff",
    "Strace.Inject.parseWhen_bounds"
   ],
   "note": "iff against the documented grammar"
  },
  {
   "property": "C07",
   "status": "proved",
   "theorems": [
    "Strace.Inject.tamper_due_iff",
    "Strace.Inject.when_schedule"
   ],
   "note": "every rule table, every history of invocations of any number of tracees"
  },
  {
   "property": "C08",
   "status": "partial",
   "theorems": [
    "Strace.Inject.injection_not_independent",
    "Strace.Inject.plain_call_misreported",
    "Strace.Inject.injection_independent_partial",
    "Strace.Inject.injected_error_reported",
    "Strace.Inject.injected_retval_reported",
    "Strace.Inject.injected_subst_reported",
    "Strace.Inject.plain_reported",
    "Strace.Inject.not_injected_reported"
   ],
   "note": "false of the code: TCB_TAMPERED_NO_FAIL is never cleared; proved for histories without syscall= substitution"
  },
  {
   "property": "C09",
   "status": "proved",
   "theorems": [
    "Strace.Quote.quote_roundtrip",
    "Strace.Quote.quote_roundtrip_comment",
    "Strace.Quote.shown_all",
    "Strace.Quote.shown_term",
    "Strace.Quote.quote_injective",
    "Strace.Quote.quote_nonAsciiChars_ambiguous"
   ],
   "note": "for every byte string, style and escape set; the C reading of --strings-in-hex=non-ascii-chars is ambiguous (witness), the fixed two-digit reading is proved"
  },
  {
   "property": "C10",
   "status": "partial",
   "theorems": [
    "Strace.Quote.quote_length",
    "Strace.Quote.printQuoted_fits",
    "Strace.Quote.printQuoted_fits_comment_partial",
    "Strace.Quote.printstr_fits",
    "Strace.Quote.quoteAlloc_wraps"
   ],
   "note": "comment style needs size < 2^30-2 (witness of the 32-bit wrap beyond)"
  },
  {
   "property": "C11",
   "status": "proved",
   "theorems": [
    "Strace.Quote.printstr_ellipsis",
    "Strace.Quote.printstr_bounded_ellipsis",
    "Strace.Quote.printstrn_ellipsis",
    "Strace.Quote.printpath_ellipsis"
   ],
   "note": "every string, limit and previous buffer content"
  },
  {
   "property": "C57",
   "status": "proved",
   "theorems": [
    "Strace.Quote.quote_printable",
    "Strace.Quote.escape_chars_escaped"
   ],
   "note": ""
  },
  {
   "property": "C58",
   "status": "proved",
   "theorems": [
    "Strace.Quote.xx_all_hex",
    "Strace.Quote.x_nonAscii"
   ],
   "note": ""
  },
  {
   "property": "C12",
   "status": "proved",
   "theorems": [
    "Strace.Xlat.printflags_or",
    "Strace.Xlat.printflags_zero",
    "Strace.Xlat.printflags_raw",
    "Strace.Xlat.sprintflags_or",
    "Strace.Xlat.sprintflags_zero"
   ],
   "note": "any number of tables of any size; the names are the greedy maximal decomposition, names and residual OR to the word and are disjoint"
  },
  {
   "property": "C13",
   "status": "proved",
   "theorems": [
    "Strace.Xlat.xlookup_eq",
    "Strace.Xlat.printxvals_eq",
    "Strace.Xlat.searchEqOrLess_floor",
    "Strace.Xlat.xrlookup_eq",
    "Strace.Xlat.xrlookup_xlookup"
   ],
   "note": "for every table meeting its storage contract"
  },
  {
   "property": "C14",
   "status": "partial",
   "theorems": [
    "Strace.Time.tsCmp_spec",
    "Strace.Time.tsNz_spec",
    "Strace.Time.tsAdd_spec",
    "Strace.Time.tsSub_spec",
    "Strace.Time.tsSub_clock",
    "Strace.Time.tsDiv_spec_partial",
    "Strace.Time.tsMin_spec",
    "Strace.Time.tsMax_spec",
    "Strace.Time.tsDiv_wraps"
   ],
   "note": "signed overflow is an outcome of the model and excluded by the stated ranges; division is rounding to nearest while the intermediate product fits 64 bits (tsDiv_wraps shows the limit is real)"
  },
  {
   "property": "C39",
   "status": "partial",
   "theorems": [
    "Strace.Bits.sprintsigmask_exact",
    "Strace.Bits.mem_sigList",
    "Strace.Bits.sprintsigmask_fits_partial",
    "Strace.Bits.sprintsigmask_verbose_overflows"
   ],
   "note": "exactness proved for every mask and style; the buffer bound is false in verbose style (witness), proved for the others"
  },
  {
   "property": "C40",
   "status": "proved",
   "theorems": [
    "Strace.Bits.nextSetBit_le",
    "Strace.Bits.nextSetBit_be",
    "Strace.Bits.scan_spec"
   ],
   "note": "both byte orders, every array, start and size"
  },
  {
   "property": "C41",
   "status": "partial",
   "theorems": [
    "Strace.Bits.selectText_fits",
    "Strace.Bits.selectText_wellformed_partial",
    "Strace.Bits.selectText_malformed"
   ],
   "note": "the bound holds for every input; well-formedness is false of the code when a set has no ready descriptor (witness), proved otherwise"
  },
  {
   "property": "C55",
   "status": "partial",
   "theorems": [
    "Strace.Time.ticksComment_exact_partial",
    "Strace.Time.ticksDComment_exact_partial",
    "Strace.Time.clockComment_100",
    "Strace.Time.clockComment_1024_wrong",
    "Strace.Time.ilog10_spec"
   ],
   "note": "exact for tick rates that are powers of ten; false for others (witness 1024)"
  },
  {
   "property": "C59",
   "status": "proved",
   "theorems": [
    "Strace.Time.parseTs_int_iff",
    "Strace.Time.timescaleSfx_eq"
   ],
   "note": "integer forms; the floating-point form is not modelled"
  },
  {
   "property": "C15",
   "status": "proved",
   "theorems": [
    "Strace.Seccomp.installed_selects",
    "Strace.Seccomp.installed_selects_one",
    "Strace.Seccomp.linear_selects",
    "Strace.Seccomp.binary_selects",
    "Strace.Seccomp.generators_agree",
    "Strace.Seccomp.traced_iff"
   ],
   "note": "the classic BPF machine is modelled from the kernel documentation; tables satisfy Sane (flag is one bit above all numbers)"
  },
  {
   "property": "C16",
   "status": "proved",
   "theorems": [
    "Strace.Seccomp.installed_wellformed",
    "Strace.Seccomp.kernelOk_returns",
    "Strace.Seccomp.generators_fit"
   ],
   "note": "jump targets, last instruction, length limit; also the static buffers are never overrun"
  },
  {
   "property": "C60",
   "status": "partial",
   "theorems": [
    "Strace.Seccomp.beyond_table_traced_partial",
    "Strace.Seccomp.beyond_table_let_through"
   ],
   "note": "true of the first generator only; the code installs the shorter program and the second generator lets such calls through (witness)"
  },
  {
   "property": "C18",
   "status": "partial",
   "theorems": [
    "Strace.Trie.trie_is_map",
    "Strace.Trie.iterate_spec_partial",
    "Strace.Trie.iterate_complete_partial",
    "Strace.Trie.iterate_endless",
    "Strace.Trie.iterate_wrong_count"
   ],
   "note": "iteration with start beyond the key range, or up to 2^64-1 with 64-bit keys, is excluded: there the code miscounts or never ends (witnesses)"
  },
  {
   "property": "C19",
   "status": "partial",
   "theorems": [
    "Strace.UCopy.umoven_spec_partial",
    "Strace.UCopy.read_true_partial",
    "Strace.UCopy.reach_inv",
    "Strace.UCopy.umoven_fallback",
    "Strace.UCopy.umoven_max_len"
   ],
   "note": "for every cache state reachable by reads, resumes and pokes made before the first read of a stop; the kernel may fail any call; requests below 2^32-1 bytes (at that size a failure is reported as success: umoven_max_len)"
  },
  {
   "property": "C20",
   "status": "partial",
   "theorems": [
    "Strace.UCopy.umovestr_spec_partial",
    "Strace.UCopy.umovestr_peek_count",
    "Strace.UCopy.umovestr_wrong_count",
    "Strace.UCopy.umovestr_beyond_limit"
   ],
   "note": "full with process_vm_readv or word-aligned requests; the word-by-word fallback returns wrong counts otherwise (characterised exactly, witnesses)"
  },
  {
   "property": "C21",
   "status": "proved",
   "theorems": [
    "Strace.UCopy.upoken_spec",
    "Strace.UCopy.upoken_fallback"
   ],
   "note": "both the vectored and the word-by-word path; requests below 2^32-1 bytes"
  },
  {
   "property": "C61",
   "status": "partial",
   "theorems": [
    "Strace.UCopy.poke_then_read_partial",
    "Strace.UCopy.poke_then_stale"
   ],
   "note": "true when nothing was read since the stop; false otherwise because the page cache is not invalidated by pokes (witness)"
  },
  {
   "property": "C22",
   "status": "proved",
   "theorems": [
    "Strace.Tcb.lookup_exact",
    "Strace.Tcb.one_record",
    "Strace.Tcb.alloc_fresh",
    "Strace.Tcb.pointer_stable",
    "Strace.Attach.lookup_after_startup"
   ],
   "note": "for every history of tracees seen, updated, gone and switched by exec, with any stale lookup cache; also after startup with any list of -p, repeated pids included"
  },
  {
   "property": "C23",
   "status": "proved",
   "theorems": [
    "Strace.Tcb.nprocs_exact"
   ],
   "note": "counter equals both the abstract number of tracees and the number of used records"
  },
  {
   "property": "C49",
   "status": "proved",
   "theorems": [
    "Strace.Tcb.realloc_exact",
    "Strace.Tcb.grow_strict",
    "Strace.Tcb.grow_succeeds"
   ],
   "note": "size arithmetic in size_t, for any HALF_SIZE_T"
  },
  {
   "property": "C17",
   "status": "partial",
   "theorems": [
    "Strace.Ev.alternation_partial",
    "Strace.Ev.exec_switch_op",
    "Strace.Ev.exec_switch_missed",
    "Strace.Ev.beyond_table_missed",
    "Strace.Ev.delayed_wrong_personality"
   ],
   "note": "proved for every activity of a tracee, both kernel orders; missing: exec by a non-leader thread, a call beyond the table with an event inside, a delay ending under another personality - each of these is shown to go wrong in the code"
  },
  {
   "property": "C26",
   "status": "proved",
   "theorems": [
    "Strace.Ev.classify_spec",
    "Strace.Ev.classify_death"
   ],
   "note": "every stop of ptrace(2)/wait(2), seized and attached tracees"
  },
  {
   "property": "C27",
   "status": "proved",
   "theorems": [
    "Strace.Ev.signals_faithful"
   ],
   "note": "for every sequence of stops of a tracee with no injected signal and no delay"
  },
  {
   "property": "C62",
   "status": "partial",
   "theorems": [
    "Strace.Ev.inject_signal_partial",
    "Strace.Ev.delay_loses_signal"
   ],
   "note": "delivered unless a delay is injected on entry of the same call; then the signal is lost (proved)"
  },
  {
   "property": "C28",
   "status": "partial",
   "theorems": [
    "Strace.Ev.exit_code_exited_partial",
    "Strace.Ev.exit_code_killed_partial",
    "Strace.Ev.exit_code_others",
    "Strace.Ev.exit_code_interrupted",
    "Strace.Ev.exit_code_pid0"
   ],
   "note": "for every history whose events carry real pids; exit_code_pid0 shows what an event attributed to a freed record (finding under C30) does"
  },
  {
   "property": "C30",
   "status": "partial",
   "theorems": [
    "Strace.Ev.queue_exact",
    "Strace.Ev.taken_all",
    "Strace.Ev.dispatched_to_tracee_partial",
    "Strace.Ev.extra_to_freed"
   ],
   "note": "events are dequeued exactly once in order with their own data (full); they go to a live tracee unless an earlier event of the same batch freed the record, which the code allows (witness)"
  },
  {
   "property": "C52",
   "status": "proved",
   "theorems": [
    "Strace.Ev.limit_exact",
    "Strace.Ev.limit_none"
   ],
   "note": ""
  },
  {
   "property": "C29",
   "status": "proved",
   "theorems": [
    "Strace.Tcb.exec_switch"
   ],
   "note": "the table; the output side is under C24/C25"
  },
  {
   "property": "C24",
   "status": "partial",
   "theorems": [
    "Strace.Out.shared_log_lines",
    "Strace.Out.shared_log_content",
    "Strace.Out.shared_log_leaders",
    "Strace.Out.nothing_elsewhere",
    "Strace.Out.detach_glues",
    "Strace.Out.failed_ptrace_glues"
   ],
   "note": "full for a shared log without a status filter (every interleaving, exec by threads, detaching, ptrace failures); with a status filter lines can be glued (two witnesses), see C51 for what holds then"
  },
  {
   "property": "C25",
   "status": "partial",
   "theorems": [
    "Strace.Out.calls_resumed_once",
    "Strace.Out.uninterrupted_one_line_partial",
    "Strace.Out.exec_splits_next",
    "Strace.Out.note_tears"
   ],
   "note": "resumed exactly once: full for a shared log without status filter; 'not interrupted -> one line' holds unless a thread's exec was filtered out before (witness); with -ff or a status filter a note inside a call tears it (witness)"
  },
  {
   "property": "C51",
   "status": "partial",
   "theorems": [
    "Strace.Out.status_filter_partial",
    "Strace.Out.detach_glues",
    "Strace.Out.note_tears",
    "Strace.Out.killed_lost",
    "Strace.Out.exec_halved",
    "Strace.Out.failed_ptrace_glues"
   ],
   "note": "exact log for every history without ptrace failure, thread exec, note inside a shown call, or selected detach inside a shown call; each exclusion is shown to break the property in the code"
  },
  {
   "property": "C31",
   "status": "partial",
   "theorems": [
    "Strace.Detach.seized_detach",
    "Strace.Detach.unseized_detach",
    "Strace.Detach.unseized_death",
    "Strace.Detach.stopped_detach_partial",
    "Strace.Detach.absent_detach",
    "Strace.Detach.cleanup_each",
    "Strace.Detach.signal_lost",
    "Strace.Detach.waits_for_stopped"
   ],
   "note": "Proved for running tracees, for those whose attach SIGSTOP is still due, and for all tracees at once in cleanup. Fails for a tracee stopped to deliver a signal when strace is interrupted: the signal is lost (signal_lost); and without PTRACE_SEIZE strace may wait for a stopped tracee forever (waits_for_stopped)."
  },
  {
   "property": "C44",
   "status": "partial",
   "theorems": [
    "Strace.Delay.never_early",
    "Strace.Delay.timer_armed_partial",
    "Strace.Delay.woken_partial",
    "Strace.Delay.some3_valid",
    "Strace.Delay.late_by_gap",
    "Strace.Delay.discarded_notification",
    "Strace.Delay.lost_flag"
   ],
   "note": "never_early is unconditional. Being woken is proved when the kernel keeps a pending timer notification and no tracee ends in a delay while it is pending; the deadline is missed by at most the time between the two clock readings. Witnesses show that each condition is needed."
  },
  {
   "property": "C32",
   "status": "proved",
   "theorems": [
    "Strace.Walk.netlink_walk",
    "Strace.Walk.netlink_all"
   ],
   "note": "Termination, bounds and order for every buffer; well-formed buffers are shown exactly. Family-specific payload decoders are not modelled."
  },
  {
   "property": "C33",
   "status": "proved",
   "theorems": [
    "Strace.Walk.nlattr_walk",
    "Strace.Walk.nlattr_all",
    "Strace.Walk.decoder_choice"
   ],
   "note": "As C32; which decoder gets a payload is proved, the decoders themselves are not modelled."
  },
  {
   "property": "C34",
   "status": "partial",
   "theorems": [
    "Strace.Walk.control_walk_partial",
    "Strace.Walk.control32_walk",
    "Strace.Walk.control_all",
    "Strace.Walk.control_endless"
   ],
   "note": "Full for 32-bit tracees; for 64-bit ones provided no cmsg_len is within 7 of 2^64, where the code loops forever (control_endless)."
  },
  {
   "property": "C35",
   "status": "proved",
   "theorems": [
    "Strace.Walk.dents_walk",
    "Strace.Walk.dents_summary",
    "Strace.Walk.chained_inside",
    "Strace.Walk.dents_all"
   ],
   "note": "Every buffer content; separators and names are not modelled."
  },
  {
   "property": "C36",
   "status": "partial",
   "theorems": [
    "Strace.Show.print_array_partial",
    "Strace.Show.print_array_overflow",
    "Strace.Show.print_array_empty",
    "Strace.Show.reason_unique",
    "Strace.Show.long_array_unlimited",
    "Strace.Arr.array_shown",
    "Strace.Arr.array_not"
   ],
   "note": "Proved for arrays of fewer than 2^32 elements; beyond that the limit does not hold (long_array_unlimited). Elements printed with a state of their own and indices in front of elements: Arr."
  },
  {
   "property": "C37",
   "status": "partial",
   "theorems": [
    "Strace.Show.iov_shares",
    "Strace.Show.iov_unlimited",
    "Strace.Show.dump_shares_partial",
    "Strace.Show.dump_stops_at_empty"
   ],
   "note": "The printed vector is proved in full; the dump stops at an empty buffer (dump_stops_at_empty), so it is proved for vectors without empty buffers."
  },
  {
   "property": "C38",
   "status": "proved",
   "theorems": [
    "Strace.Show.dump_whole",
    "Strace.Show.dump_cut",
    "Strace.Show.read_back",
    "Strace.Show.lines_bytes",
    "Strace.Show.dump_round_trip",
    "Strace.Show.ilog2_spec",
    "Strace.Show.same_width",
    "Strace.Show.line_length",
    "Strace.Show.dump_overflow"
   ],
   "note": ""
  },
  {
   "property": "C42",
   "status": "proved",
   "theorems": [
    "Strace.Count.table_is_history",
    "Strace.Count.totals_are_history"
   ],
   "note": "Every history of fewer than 2^64 calls (2^33 for the averages and totals) whose times are below 2^61 s each and 2^62 s in total. The printed decimals (floating point) are not modelled."
  },
  {
   "property": "C43",
   "status": "partial",
   "theorems": [
    "Strace.Count.larger_first_partial",
    "Strace.Count.names_in_order",
    "Strace.Count.comparison_consistent",
    "Strace.Count.sorted_table_partial",
    "Strace.Count.one_row_each",
    "Strace.Count.sort_names",
    "Strace.Count.calls_misordered"
   ],
   "note": "Times and names for all values; numbers of calls and errors below 2^32 only, since the comparison cuts them to 32 bits (calls_misordered). qsort is assumed to return a sorted permutation for a consistent comparison."
  },
  {
   "property": "C63",
   "status": "proved",
   "theorems": [
    "Strace.Count.columns_given",
    "Strace.Count.commas_exist",
    "Strace.Count.columns_fit"
   ],
   "note": ""
  },
  {
   "property": "C45",
   "status": "proved",
   "theorems": [
    "Strace.Misc.maps_ascending",
    "Strace.Misc.maps_all",
    "Strace.Misc.maps_lookup",
    "Strace.Misc.entry_fields"
   ],
   "note": ""
  },
  {
   "property": "C65",
   "status": "partial",
   "theorems": [
    "Strace.Misc.maps_history_partial",
    "Strace.Misc.maps_stale"
   ],
   "note": "Every history of any number of tracees with fewer than 2^32 changes between two uses by the same tracee; after exactly 2^32 changes the old mappings are used (maps_stale)."
  },
  {
   "property": "C46",
   "status": "proved",
   "theorems": [
    "Strace.Misc.env_values",
    "Strace.Misc.env_others"
   ],
   "note": ""
  },
  {
   "property": "C47",
   "status": "partial",
   "theorems": [
    "Strace.Misc.release_order_partial",
    "Strace.Misc.checks_right",
    "Strace.Misc.release_misordered"
   ],
   "note": "Exact for components up to 255; the comparisons strace actually makes are right for all releases (checks_right); a component above 255 is misordered (release_misordered)."
  },
  {
   "property": "C48",
   "status": "proved",
   "theorems": [
    "Strace.Misc.list_step",
    "Strace.Misc.list_steps",
    "Strace.Misc.lists_refine",
    "Strace.Misc.foreach_safe_remove",
    "Strace.Misc.foreach_ring"
   ],
   "note": "Every history of operations allowed by the comments in list.h, any number of lists and items."
  },
  {
   "property": "C50",
   "status": "proved",
   "theorems": [
    "Strace.Misc.rules_kept",
    "Strace.Misc.rules_taken",
    "Strace.Misc.too_many_reported"
   ],
   "note": ""
  },
  {
   "property": "C53",
   "status": "partial",
   "theorems": [
    "Strace.Misc.involution_bijection",
    "Strace.Misc.xor_involution",
    "Strace.Misc.arm_bijection",
    "Strace.Misc.arm_numbers",
    "Strace.Misc.other_bijections",
    "Strace.Misc.table_numbers",
    "Strace.Misc.x32_bijection_partial",
    "Strace.Misc.x32_clash"
   ],
   "note": "All shuffles are injective on system call numbers except that of x32 at one value (x32_clash)."
  },
  {
   "property": "C56",
   "status": "proved",
   "theorems": [
    "Strace.Misc.ioctl_names"
   ],
   "note": "bsearch is taken by its contract: it returns some matching entry if there is one; the generated table is assumed sorted (ioctlsort is not modelled)."
  },
  {
   "property": "C64",
   "status": "partial",
   "theorems": [
    "Strace.Misc.pokes_kept_partial",
    "Strace.Misc.pokes_few",
    "Strace.Misc.pokes_lost"
   ],
   "note": "Full for up to eight rules, and for any number if realloc does not move the array; if it does, the lists of earlier rules lead to freed memory (pokes_lost)."
  },
  {
   "property": "C54",
   "status": "partial",
   "theorems": [
    "Strace.Misc.translate_right_partial",
    "Strace.Misc.answers_right_partial",
    "Strace.Misc.tracee_ns_right_partial",
    "Strace.Misc.deep_overrun"
   ],
   "note": "For every content of the caches, every history of a changing system and every iteration order, when no process is in more than 32 nested namespaces as seen from /proc; the kernel allows 33, and then ids are read outside of an array (deep_overrun). The system does not change during one translation; kernels without NS_GET_PARENT are not modelled."
  },
  {
   "property": "C66",
   "status": "partial",
   "theorems": [
    "Strace.Path.selected_paths",
    "Strace.Path.selection_right_partial",
    "Strace.Path.selection_sound",
    "Strace.Path.rename_missed",
    "Strace.Path.epoll_ctl_missed",
    "Strace.Path.others_missed",
    "Strace.Path.getcwd_spurious"
   ],
   "note": "All rows of the x86_64 and i386 tables except eight calls. rename looks at the old name only (rename_missed); epoll_ctl, fanotify_mark, fsconfig, perf_event_open and close_range miss a descriptor; getcwd and an unknown socketcall may be shown without naming anything. Nothing else is ever shown wrongly (selection_sound)."
  },
  {
   "property": "C67",
   "status": "proved",
   "theorems": [
    "Strace.Path.fd_path_right"
   ],
   "note": "Under the kernel's contract for /proc/PID/fd and lstat; a removed file that has another name equal to the old one with the mark appended is excluded (it cannot be told from a present one)."
  },
  {
   "property": "C68",
   "status": "proved",
   "theorems": [
    "Strace.Cli.signal_text",
    "Strace.Cli.signal_value",
    "Strace.Cli.signal_reads_back",
    "Strace.Cli.error_text",
    "Strace.Cli.error_reads_back"
   ],
   "note": "For the tables of all architectures in /repo (six distinct ones), every text and number."
  },
  {
   "property": "C69",
   "status": "proved",
   "theorems": [
    "Strace.Cli.pid_list",
    "Strace.Cli.words_exist",
    "Strace.Cli.words_unique"
   ],
   "note": "Attaching itself is not part of this property."
  },
  {
   "property": "C70",
   "status": "partial",
   "theorems": [
    "Strace.Cli.program_found",
    "Strace.Cli.program_not_found",
    "Strace.Cli.first_in_path_partial",
    "Strace.Cli.trailing_colon"
   ],
   "note": "program_found says exactly what is run, for every PATH; an empty entry at the very end of PATH is not searched (trailing_colon), otherwise this is the property (first_in_path_partial)."
  },
  {
   "property": "C71",
   "status": "partial",
   "theorems": [
    "Strace.Cli.poke_reads",
    "Strace.Cli.poke_shape_partial",
    "Strace.Cli.poke_loose"
   ],
   "note": "Every well-formed text is read as spelt; everything accepted has the shape, but some texts that are not hexadecimal are accepted (poke_loose)."
  },
  {
   "property": "C72",
   "status": "proved",
   "theorems": [
    "Strace.Cli.inject_option",
    "Strace.Cli.tokens_any_order",
    "Strace.Cli.retval_text"
   ],
   "note": "Values of when= as in C06, delays as in C59, poke data as in C71, the set as in C05. when= may be repeated, the last one counts (when_twice)."
  },
  {
   "property": "C73",
   "status": "proved",
   "theorems": [
    "Strace.Cli.option_of_text",
    "Strace.Cli.option_unique"
   ],
   "note": ""
  },
  {
   "property": "C74",
   "status": "partial",
   "theorems": [
    "Strace.Result.says_unique",
    "Strace.Result.result_shown",
    "Strace.Result.read_regs",
    "Strace.Result.read_info_partial",
    "Strace.Result.info_never_fails",
    "Strace.Result.call_shown_partial"
   ],
   "note": "Full for results read from registers. With PTRACE_GET_SYSCALL_INFO the property fails for calls that cannot fail (info_never_fails); proved for all others. The libc texts of errors, paths and names after descriptors are parameters with the stated shapes."
  },
  {
   "property": "C75",
   "status": "proved",
   "theorems": [
    "Strace.Result.tOpt_spec",
    "Strace.Result.elapsed_shown"
   ],
   "note": ""
  },
  {
   "property": "C76",
   "status": "partial",
   "theorems": [
    "Strace.Args.args_shown_partial",
    "Strace.Args.sh_fadvise",
    "Strace.Args.sh_sync",
    "Strace.Args.csky_fadvise"
   ],
   "note": "missing: fadvise64_64 and sync_file_range on SH and fadvise64_64 on csky, where it is false (findings 46, 47); fadvise64_64 on s390 and sync_file_range on csky, where the kernel's convention is in doubt"
  },
  {
   "property": "C77",
   "status": "partial",
   "theorems": [
    "Strace.Args.socket_shown",
    "Strace.Args.ipc_shown_partial",
    "Strace.Args.ipc_other",
    "Strace.Args.direct_shown",
    "Strace.Args.shmat_value",
    "Strace.Args.semctl_version",
    "Strace.Args.msgrcv_changed"
   ],
   "note": "tracees with 4-byte words, not s390; missing: semctl commands shown on exit when the call number carries a version, and msgrcv of version 0 when its pair changes during the call, where it is false (findings 48, 49)"
  },
  {
   "property": "C78",
   "status": "partial",
   "theorems": [
    "Strace.Hide.started_shown",
    "Strace.Hide.started_injected",
    "Strace.Hide.own_code_hidden_partial",
    "Strace.Hide.program_seen",
    "Strace.Hide.attached_seen",
    "Strace.Hide.signal_shown",
    "Strace.Hide.own_code_seen"
   ],
   "note": "What is shown and tampered with is characterised for every history (started_shown, started_injected). The property fails after an exec call that does not pass the filters (own_code_seen, finding 50), and holds if the exec calls pass them; the part about the running program and about attached processes holds without condition."
  },
  {
   "property": "C79",
   "status": "proved",
   "theorems": [
    "Strace.Hide.detach_on_exec",
    "Strace.Hide.reported_until_detach"
   ],
   "note": "One thread."
  },
  {
   "property": "C80",
   "status": "partial",
   "theorems": [
    "Strace.Hide.comm_shown_partial",
    "Strace.Hide.real_is_last",
    "Strace.Hide.comm_stale"
   ],
   "note": "It fails for a name changed right after a reported call that failed (comm_stale, finding 51); proved for all other histories."
  },
  {
   "property": "C81",
   "status": "partial",
   "theorems": [
    "Strace.Show.Dumpio.dumped_partial",
    "Strace.Show.Dumpio.nothing_dumped",
    "Strace.Show.Dumpio.buffers_numbered",
    "Strace.Show.Dumpio.vectors_numbered",
    "Strace.Show.Dumpio.failed_sendmmsg",
    "Strace.Show.Dumpio.recv_beyond_buffer"
   ],
   "note": "Missing: vectors with empty buffers (finding 33), sendmmsg that fails (finding 52), results above the size of the buffer (finding 53), where it is false."
  },
  {
   "property": "C82",
   "status": "partial",
   "theorems": [
    "Strace.Pack.mmap_flags_partial",
    "Strace.Pack.mmap_high_lost",
    "Strace.Pack.memfd_flags",
    "Strace.Pack.mount_flags_partial",
    "Strace.Pack.mount_high_lost",
    "Strace.Pack.futex_op",
    "Strace.Pack.clone_flags",
    "Strace.Pack.shmget_flags",
    "Strace.Pack.get_flags_partial",
    "Strace.Pack.get_flags_glued",
    "Strace.Pack.sock_type",
    "Strace.Pack.personality_arg",
    "Strace.Pack.nla_type",
    "Strace.Pack.nf_type",
    "Strace.Pack.ipc_call",
    "Strace.Pack.tone_arg",
    "Strace.Pack.perf_hw",
    "Strace.Pack.perf_cache",
    "Strace.Pack.seccomp_k",
    "Strace.Pack.oflag_partial",
    "Strace.Pack.oflag_trailing_bar",
    "Strace.Pack.cflag_partial",
    "Strace.Pack.cflag_trailing_bar",
    "Strace.Pack.bpf_operation_names",
    "Strace.Pack.bpf_shown",
    "Strace.Pack.bpf_code_partial",
    "Strace.Pack.open_flags",
    "Strace.Pack.quota_cmd",
    "Strace.Pack.ioprio_arg",
    "Strace.Pack.dev_number",
    "Strace.Pack.vl_val",
    "Strace.Pack.tagged_addr",
    "Strace.Pack.riscv_ctrl"
   ],
   "note": "False as stated for five of the words: mmap flags lose bits 32 and up in abbreviated style, mount flags do so after the old magic number, msgget/semget print unknown flags and the mode as one number, terminal flags end in a bar when no other flag is set, and most codes of classic filter statements lose their high byte. For these the value is proved outside the failing cases, and the failure is proved for all of them. The other eighteen are proved in full."
  },
  {
   "property": "C83",
   "status": "proved",
   "theorems": [
    "Strace.Pack.status_word",
    "Strace.Pack.status_shown"
   ],
   "note": ""
  },
  {
   "property": "C84",
   "status": "proved",
   "theorems": [
    "Strace.Tracee.poll_shown",
    "Strace.Tracee.poll_timeout",
    "Strace.Tracee.poll_nothing"
   ],
   "note": "For a call that did not fail; texts of flags and times are arbitrary."
  },
  {
   "property": "C85",
   "status": "proved",
   "theorems": [
    "Strace.Tracee.vector_total",
    "Strace.Tracee.argv_shown",
    "Strace.Tracee.argc_shown",
    "Strace.Tracee.envp_shown",
    "Strace.Tracee.args_plain"
   ],
   "note": "Strings are shown by their addresses (how a string is quoted is C01-C03). Fewer than 2^32 pointers: the counter is an unsigned int."
  },
  {
   "property": "C86",
   "status": "partial",
   "theorems": [
    "Strace.Tracee.targetSpec_placed",
    "Strace.Tracee.nameList_placed",
    "Strace.Tracee.targetVersions_placed",
    "Strace.Tracee.targetSpec_shown",
    "Strace.Tracee.nameList_shown",
    "Strace.Tracee.targetVersions_shown",
    "Strace.Tracee.targetDeps_shown",
    "Strace.Tracee.message_shown",
    "Strace.Tracee.dm_abbreviated",
    "Strace.Tracee.dm_marked",
    "Strace.Tracee.dmString_shown",
    "Strace.Tracee.last_event_hidden",
    "Strace.Tracee.event_outside",
    "Strace.Tracee.short_name_unread"
   ],
   "note": "Everything but the event numbers of devices: they are bounded by the next offset and not by the data (event_outside), the one of the last device is never shown (last_event_hidden); a device whose structure with padding is not readable is not shown (short_name_unread)."
  },
  {
   "property": "C87",
   "status": "partial",
   "theorems": [
    "Strace.Sized.openHow_shown",
    "Strace.Sized.openHow_determines",
    "Strace.Sized.mountAttr_shown",
    "Strace.Sized.mountAttr_determines",
    "Strace.Sized.xattrArgs_shown",
    "Strace.Sized.not_shown",
    "Strace.Sized.short_shown",
    "Strace.Sized.mntIdReq_short",
    "Strace.Sized.mntIdReq_shown",
    "Strace.Sized.mntIdReq_determines_partial",
    "Strace.Sized.mntIdReq_short_hidden",
    "Strace.Sized.clone3_shown",
    "Strace.Sized.clone3_text",
    "Strace.Sized.clone3_exit_shown",
    "Strace.Sized.schedSet_shown",
    "Strace.Sized.schedSet_short",
    "Strace.Sized.schedSet_policy_hidden",
    "Strace.Sized.schedGet_shown_partial",
    "Strace.Sized.schedGet_more_hidden",
    "Strace.Sized.perf_shown",
    "Strace.Sized.perf_new_size",
    "Strace.Sized.perf_brief",
    "Strace.Sized.perf_address",
    "Strace.Sized.perf_flags_determined"
   ],
   "note": "Full for openat2, mount_setattr, setxattrat, clone3 and perf_event_open. It fails for listmount and statmount requests of 25 to 31 bytes (mntIdReq_short_hidden), for sched_getattr when the kernel wrote more than 56 bytes (schedGet_more_hidden) and for the policy of sched_setattr with SCHED_FLAG_KEEP_PARAMS (schedSet_policy_hidden); proved otherwise."
  },
  {
   "property": "C88",
   "status": "proved",
   "theorems": [
    "Strace.Sock.fields_shown",
    "Strace.Sock.fields_determined",
    "Strace.Sock.raw_shown",
    "Strace.Sock.decode_safe",
    "Strace.Sock.decode_not",
    "Strace.Sock.unix_path",
    "Strace.Sock.unix_abstract",
    "Strace.Sock.unix_determined",
    "Strace.Sock.strings_shown",
    "Strace.Sock.ll_shown",
    "Strace.Sock.ax25_call",
    "Strace.Sock.ax25_digis",
    "Strace.Sock.call_determines",
    "Strace.Sock.call_comment",
    "Strace.Sock.addr2str_eq",
    "Strace.Sock.sockname_returned",
    "Strace.Sock.sockname_failed",
    "Strace.Sock.recvfrom_returned",
    "Strace.Sock.msgName_returned",
    "Strace.Sock.msgName_sent",
    "Strace.Sock.returned_agree",
    "Strace.Sock.ax25_hidden"
   ],
   "note": "How a number is written as a name, an interface or an internet address is not part of the model. Digipeaters passed beyond the count in the address are not shown (ax25_hidden)."
  },
  {
   "property": "C89",
   "status": "partial",
   "theorems": [
    "Strace.Sock.origDst_safe_partial",
    "Strace.Sock.origDst_in6",
    "Strace.Sock.origDst_beyond_in6",
    "Strace.Sock.origDst_beyond_un",
    "Strace.Sock.origDst_leak"
   ],
   "note": "False of the code for AF_INET6 addresses of 25 to 27 bytes and for paths without a NUL; proved for the rest."
  },
  {
   "property": "C90",
   "status": "partial",
   "theorems": [
    "Strace.Sets.affinity_shown",
    "Strace.Sets.affinity_addr",
    "Strace.Sets.evdev_shown_partial",
    "Strace.Sets.evdev_member",
    "Strace.Sets.evdev_addr",
    "Strace.Sets.evdev_hides",
    "Strace.Sets.evdev_overread",
    "Strace.Sets.nodemask_shown",
    "Strace.Sets.icmp_shown",
    "Strace.Sets.icmpOut_shown",
    "Strace.Sets.icmp_addr"
   ],
   "note": "Full for CPU sets, ICMP filters and node masks. Of event codes the largest one of a kind is never shown (evdev_hides: SW_MACHINE_COVER), and a set that is returned but not followed by readable bytes up to a whole word is shown as its address (evdev_overread)."
  },
  {
   "property": "C91",
   "status": "partial",
   "theorems": [
    "Strace.Sig.siginfo_shown_partial",
    "Strace.Sig.siginfo_none",
    "Strace.Sig.siginfo_other",
    "Strace.Sig.siginfo_at",
    "Strace.Sig.siginfo_at_addr",
    "Strace.Sig.code_name_exact",
    "Strace.Sig.code_name_abi",
    "Strace.Sig.poll_as_source",
    "Strace.Sig.event_as_addr",
    "Strace.Sig.kernel_as_addr",
    "Strace.Sig.tkill_value"
   ],
   "note": "Proved for all codes of users, timers and files and for all codes specific to a signal. False of the code for POLL_* codes of other signals than SIGIO, for ptrace events, for faults with SI_KERNEL and for a value queued with SI_TKILL."
  },
  {
   "property": "C92",
   "status": "partial",
   "theorems": [
    "Strace.Diag.details_safe",
    "Strace.Diag.shown_own",
    "Strace.Diag.shown_current",
    "Strace.Diag.details_shown_partial",
    "Strace.Diag.inode_of_link",
    "Strace.Diag.file_no_inode",
    "Strace.Diag.inode_only_link",
    "Strace.Diag.connect_not_shown",
    "Strace.Diag.abstract_cut"
   ],
   "note": "What is shown is what the kernel said of the same inode, now or at an earlier request. False of the code: details are never brought up to date (connect_not_shown), abstract names are cut at a NUL byte (abstract_cut)."
  },
  {
   "property": "C93",
   "status": "partial",
   "theorems": [
    "Strace.Diag.family_of_socket",
    "Strace.Diag.families_table_partial",
    "Strace.Diag.pair_set",
    "Strace.Diag.inode_as_family",
    "Strace.Diag.family_twice"
   ],
   "note": "False of the code: if the kernel has no details of the socket its inode is taken for the family (inode_as_family), and a family listed twice makes strace read beyond a copied name (family_twice)."
  },
  {
   "property": "C94",
   "status": "partial",
   "theorems": [
    "Strace.Regs.calls_read_partial",
    "Strace.Regs.overlay_reg",
    "Strace.Regs.int80_as_64",
    "Strace.Regs.minus_one_as_x32",
    "Strace.Regs.high_half_kept"
   ],
   "note": "false of the code for three kinds of calls: by registers, the 32-bit entry used by 64-bit code and the number -1 in 32 bits; with PTRACE_GET_SYSCALL_INFO, 32-bit calls reported with high halves. Proved for every history of other calls, whichever way they are read; overlay_reg is the conversion of overlaid register structures"
  },
  {
   "property": "C95",
   "status": "proved",
   "theorems": [
    "Strace.Regs.modes_told"
   ],
   "note": "for every history and all answers of the kernel; the mode a tracee is given when it appears is that in force, which is not shown"
  },
  {
   "property": "C96",
   "status": "proved",
   "theorems": [
    "Strace.Msg.recvmmsg_shown",
    "Strace.Msg.recvmmsg_all",
    "Strace.Msg.recvmmsg_timeout",
    "Strace.Msg.recvmmsg_failed",
    "Strace.Msg.sendmmsg_shown",
    "Strace.Msg.mmsg_raw",
    "Strace.Msg.save_kept",
    "Strace.Msg.sendmsg_shown",
    "Strace.Msg.recvmsg_shown",
    "Strace.Msg.recvmsg_not",
    "Strace.Msg.share_sum",
    "Strace.Msg.share_prefix",
    "Strace.Arr.array_shown",
    "Strace.Arr.array_not"
   ],
   "note": "The vector is assumed not to wrap around the address space (it is then shown as an address, Arr.array_not). Names are decoded as in C88; the walk over control messages is C34."
  },
  {
   "property": "C97",
   "status": "partial",
   "theorems": [
    "Strace.Opt.init_partial",
    "Strace.Opt.init_stops",
    "Strace.Opt.init_order",
    "Strace.Opt.separately_lost",
    "Strace.Lead.stamps_arg",
    "Strace.Lead.stamps_short",
    "Strace.Lead.stamps_prec"
   ],
   "note": "The claim is false for one -f together with --output-separately: the second option is lost (separately_lost). init_partial is the claim for all other lists of known options; init_stops covers lists that are refused in the loop; stamps_arg is the argument of --absolute-timestamps. Arguments of options are taken as parsed (their parsing is C01, C02, C04, C47, C63, C69)."
  },
  {
   "property": "C98",
   "status": "proved",
   "theorems": [
    "Strace.Lead.lead_read",
    "Strace.Lead.no_pid"
   ],
   "note": "The text of a time of day (localtime, strftime %T) is a parameter of the model (OkClock: eight characters, or nothing when localtime fails). Security contexts (--secontext) are not in the model."
  },
  {
   "property": "C99",
   "status": "partial",
   "theorems": [
    "Strace.Lead.rel_adds_up_partial",
    "Strace.Lead.rel_read_partial",
    "Strace.Lead.steps_sum",
    "Strace.Lead.rel_cut",
    "Strace.Lead.rel_separate_wrong",
    "Strace.Lead.rel_dropped_wrong"
   ],
   "note": "The claim is false with a file for each process (rel_separate_wrong) and with -z and the like (rel_dropped_wrong): the time of the line before is one variable for all files, set also by lines that are not published. rel_adds_up_partial is the claim for one file all of whose lines are published; rel_read_partial says that these are the differences a reader finds in the text."
  },
  {
   "property": "C100",
   "status": "partial",
   "theorems": [
    "Strace.Unwind.stacks_partial",
    "Strace.Unwind.stacks_fatal",
    "Strace.Unwind.stacks_stale",
    "Strace.Unwind.stacks_exit_late",
    "Strace.Unwind.stacks_empty_wrong",
    "Strace.Unwind.unnamed_differs"
   ],
   "note": "The claim is false: with -z (or -Z, -e status=) the stack of an execve that is not shown stays in the queue, so that it follows the next line (stacks_stale), or strace ends with a message about a bug at the next execve (stacks_fatal); the stack of exit comes after the line about the end of the process (stacks_exit_late); if nothing was captured the stack on leaving is shown (stacks_empty_wrong). stacks_partial is the claim with all statuses, results that can be read, and no line about the end. One process; the output of other processes between its lines is not in the model (C15)."
  },
  {
   "property": "C101",
   "status": "partial",
   "theorems": [
    "Strace.Unwind.walks_partial",
    "Strace.Unwind.walk_limit",
    "Strace.Unwind.cache_bounds",
    "Strace.Unwind.limit_exact",
    "Strace.Unwind.uWalk_eq"
   ],
   "note": "With libdw the note about too many frames is also shown for a stack that has exactly as many as the limit (limit_exact); walks_partial is the claim for all others. uWalk_eq is the same for libunwind, without exception. That libdw and libunwind find the right frames is not in the model."
  },
  {
   "property": "C102",
   "status": "proved",
   "theorems": [
    "Strace.Fds.inherited",
    "Strace.Fds.later_opens"
   ],
   "note": "descriptors as a table with lowest-free allocation; failing calls end strace and are not modelled"
  },
  {
   "property": "C103",
   "status": "partial",
   "theorems": [
    "Strace.Cred.pair_partial",
    "Strace.Cred.user_name",
    "Strace.Cred.pair_junk",
    "Strace.Cred.runs_as",
    "Strace.Cred.runs_partial",
    "Strace.Cred.seccomp_setreuid",
    "Strace.Cred.seccomp_stop",
    "Strace.Cred.filter_privs"
   ],
   "note": "that the program runs as the user if at all is proved for all cases; missing, because false: text after a second colon is ignored, and with -u and --seccomp-bpf tracing setreuid, kill or getpid keeps the program from running (findings 89, 90)"
  },
  {
   "property": "C104",
   "status": "proved",
   "theorems": [
    "Strace.Attach.startup_attached",
    "Strace.Attach.startup_ends",
    "Strace.Attach.startup_interrupted",
    "Strace.Attach.lookup_after_startup",
    "Strace.Attach.named_twice"
   ],
   "note": "unless memory runs out; a process dying between PTRACE_SEIZE and PTRACE_INTERRUPT is not modelled, pid namespaces are not translated"
  },
  {
   "property": "C105",
   "status": "partial",
   "theorems": [
    "Strace.Deco.shown_as_wanted",
    "Strace.Deco.ioctl_same",
    "Strace.Deco.nothing_known",
    "Strace.Deco.target_partial",
    "Strace.Deco.read_path",
    "Strace.Deco.read_dev",
    "Strace.Deco.sig_text",
    "Strace.Deco.read_event",
    "Strace.Deco.read_pid",
    "Strace.Deco.read_plain",
    "Strace.Deco.other_socket",
    "Strace.Deco.other_tty",
    "Strace.Deco.by_name"
   ],
   "note": "Holds for the descriptors of the caller. False of the code for the descriptors of another process (pidfd_getfd, kcmp): sockets and pseudo-terminals are looked up with the caller's own descriptor of that number (other_socket, other_tty); target_partial is the claim for everything else. Devices are recognised by name (by_name shows the condition NameHolds is needed)."
  },
  {
   "property": "C106",
   "status": "partial",
   "theorems": [
    "Strace.Kvm.reason_partial",
    "Strace.Kvm.usual_good",
    "Strace.Kvm.two_machines",
    "Strace.Kvm.moved_other",
    "Strace.Kvm.moved_little",
    "Strace.Kvm.number_reused"
   ],
   "note": "False of the code with two virtual machines in one process (two_machines), after mremap when another vCPU, or a stack trace, uses the cache first (moved_other) or when the mapping moves by less than its size (moved_little), and when a descriptor number is given to another vCPU by dup2 or by another thread (number_reused). reason_partial is the claim for all other histories; usual_good shows they include two vCPUs and stack traces."
  },
  {
   "property": "C107",
   "status": "partial",
   "theorems": [
    "Strace.Priv.given_back_partial",
    "Strace.Priv.never_twice",
    "Strace.Priv.after_first",
    "Strace.Priv.attached_outside",
    "Strace.Priv.outside_always",
    "Strace.Priv.version_for_address"
   ],
   "note": "The full claim is false of the code, findings 96 and 97: proved for tracees that strace did not attach to outside of any call, and for ipc calls whose decoder keeps nothing besides the version; without these conditions nothing is released twice, and only the first call after attaching is concerned."
  },
  {
   "property": "C108",
   "status": "partial",
   "theorems": [
    "Strace.Bpf.read_back_partial",
    "Strace.Bpf.read_rest",
    "Strace.Bpf.read_long",
    "Strace.Bpf.read_back_ebpf",
    "Strace.Bpf.upper_lost",
    "Strace.Bpf.code_named",
    "Strace.Bpf.action_named",
    "Strace.Bpf.no_action",
    "Strace.Bpf.extension_named"
   ],
   "note": "The full claim is false of the code, finding 98: the upper half of the code of BPF_LD, BPF_LDX, BPF_ALU and BPF_JMP instructions is not shown. Proved for codes without such bits, as in all programs the kernel accepts, and for all eBPF programs."
  },
  {
   "property": "C109",
   "status": "partial",
   "theorems": [
    "Strace.Psi.supported_iff",
    "Strace.Psi.child_gone",
    "Strace.Psi.shown_partial",
    "Strace.Psi.fetched",
    "Strace.Psi.half_of_flags",
    "Strace.Psi.second_reserved"
   ],
   "note": "the claim about printing is false where exactly three bytes were transferred (half_of_flags: half of flags is shown as if it were all) and of reserved2 of a seccomp stop, which is never shown (second_reserved); otherwise it is proved for all contents and lengths. The test is proved for all sequences of events"
  },
  {
   "property": "C110",
   "status": "proved",
   "theorems": [
    "Strace.Packed.contexts_shown",
    "Strace.Packed.contexts_limited",
    "Strace.Packed.text_place",
    "Strace.Packed.contexts_local",
    "Strace.Packed.texts_inside",
    "Strace.Packed.contexts_count",
    "Strace.Packed.bad_length",
    "Strace.Packed.items_shown",
    "Strace.Packed.items_local"
   ],
   "note": "bad_length says what is shown of a context with an impossible length: it is the last one. items_local asks for a buffer not in the first 32 bytes of memory (it follows a structure of at least 104 bytes)"
  },
  {
   "property": "C111",
   "status": "partial",
   "theorems": [
    "Strace.Sockopt.get_back_partial",
    "Strace.Sockopt.get_number",
    "Strace.Sockopt.get_ucred",
    "Strace.Sockopt.get_dots",
    "Strace.Sockopt.get_local_partial",
    "Strace.Sockopt.netlink_past_end",
    "Strace.Sockopt.short_filter",
    "Strace.Sockopt.set_back_partial",
    "Strace.Sockopt.set_local_partial",
    "Strace.Sockopt.negative_length",
    "Strace.Sockopt.packet_back",
    "Strace.Sockopt.group_back",
    "Strace.Sockopt.lengths",
    "Strace.Sockopt.no_value"
   ],
   "note": "Proved for every option and length but three cases, for each of which the claim is false of the code and a witness is proved: an ICMP filter of fewer than 4 bytes, a netlink option that returned fewer than 4 bytes, and a negative length given to setsockopt. Filter programs are C108; the key of TCP_AO_ADD_KEY is not modelled."
  },
  {
   "property": "C112",
   "status": "partial",
   "theorems": [
    "Strace.Secon.part_shown",
    "Strace.Secon.wanted_unique",
    "Strace.Secon.quote_clean",
    "Strace.Secon.context_back",
    "Strace.Secon.no_brackets",
    "Strace.Secon.file_context",
    "Strace.Secon.file_context_shown",
    "Strace.Secon.fd_context",
    "Strace.Secon.directories_partial",
    "Strace.Secon.symlink_path",
    "Strace.Secon.symlink_target",
    "Strace.Secon.fsconfig_directory"
   ],
   "note": "partial because the code looks up the path of fsconfig(FSCONFIG_SET_PATH) in the current directory although the descriptor comes in the next argument (fsconfig_directory), and shows for the target of symlinkat, which the kernel does not look up, the context of the file of that name in the current directory (symlink_target); both are shown with witnesses. Proved for all other modelled calls and for all histories. libselinux, realpath and stat are given functions; that getfilecon follows a symbolic link where the call does not is therefore outside the model"
  },
  {
   "property": "C113",
   "status": "partial",
   "theorems": [
    "Strace.Gram.nameToHandleAt_wf",
    "Strace.Gram.kdKeycode_wf",
    "Strace.Gram.kdKbdrep_wf",
    "Strace.Gram.kdFontx_wf",
    "Strace.Gram.kdFontOp_wf",
    "Strace.Gram.teeShm_wf",
    "Strace.Gram.queryBpf_wf",
    "Strace.Gram.ifconf_wf",
    "Strace.Gram.v4l2Format_wf",
    "Strace.Gram.v4l2Requestbuffers_wf",
    "Strace.Gram.v4l2Streamparm_wf",
    "Strace.Gram.v4l2Tuner_wf",
    "Strace.Gram.v4l2Queryctrl_wf",
    "Strace.Gram.v4l2ExtControls_wf",
    "Strace.Gram.uffdApi_wf",
    "Strace.Gram.uffdCopy_wf",
    "Strace.Gram.uffdRange_wf",
    "Strace.Gram.ptpSysOffset_wf",
    "Strace.Gram.ptpSysOffsetExtended_wf",
    "Strace.Gram.ptpPin_wf",
    "Strace.Gram.rtcParam_wf",
    "Strace.Gram.fiemap_wf",
    "Strace.Gram.dedupe_wf",
    "Strace.Gram.lsmGet_wf",
    "Strace.Gram.schedSetattr_wf",
    "Strace.Gram.getThreadArea_wf",
    "Strace.Gram.clone3_wf",
    "Strace.Gram.ioctlUnknown_wf",
    "Strace.Gram.seccompNotif_wf",
    "Strace.Gram.sysIoctl_wf",
    "Strace.Gram.teeOpen_wf_iff_partial",
    "Strace.Gram.teeInvoke_wf_iff_partial",
    "Strace.Gram.teeRecv_wf_iff_partial",
    "Strace.Gram.teeSend_wf_iff_partial",
    "Strace.Gram.kdUnimap_wf_iff_partial",
    "Strace.Gram.sgIoV3_wf_iff_partial",
    "Strace.Gram.sgIoV4_wf_iff_partial"
   ],
   "note": "partial because the claim is false of four calls of the TEE driver, of GIO_UNIMAP and of SG_IO; the theorems named _wf_iff_partial say exactly when. Text is reduced to brackets, commas, names and values; decoders not listed in DESIGN.md are not covered."
  },
  {
   "property": "C114",
   "status": "proved",
   "theorems": [
    "Strace.Order.order_iff",
    "Strace.Order.order_unique",
    "Strace.Order.child_gone",
    "Strace.Order.used_iff",
    "Strace.Order.used_program",
    "Strace.Order.installed_iff"
   ],
   "note": "the loop of the test is modelled for every sequence of events; is_complete_set_array is a parameter here (C03), so are the lengths of the programs (C15)"
  },
  {
   "property": "C115",
   "status": "partial",
   "theorems": [
    "Strace.Ioc.values_iff_partial",
    "Strace.Ioc.shown_always",
    "Strace.Ioc.symbols_shown",
    "Strace.Ioc.terminal_only",
    "Strace.Ioc.hid_name",
    "Strace.Ioc.spi_message",
    "Strace.Ioc.mixer_write",
    "Strace.Ioc.abs_size"
   ],
   "note": "False of the code for HIDIOCGNAME, SPI_IOC_MESSAGE and MIXER_WRITE, and for requests of another size than that in EVIOCGABS, EVIOCSABS and MIXER_READ; values_iff_partial says that these are all. The encoding of SPARC is not modelled."
  },
  {
   "property": "C116",
   "status": "partial",
   "theorems": [
    "Strace.Hw.readable_iff_partial",
    "Strace.Hw.always_printed",
    "Strace.Hw.quoted_all",
    "Strace.Hw.stale_shown",
    "Strace.Hw.bridge_cut",
    "Strace.Hw.infiniband_cut"
   ],
   "note": "False of the code: a link's address is cut to the length the table has for the address family of the message taken as a device type, and an address of no bytes is shown as the last one formatted before. readable_iff_partial says that these are the only cases."
  },
  {
   "property": "C117",
   "status": "partial",
   "theorems": [
    "Strace.Nlerr.every_byte",
    "Strace.Nlerr.message_every_byte",
    "Strace.Nlerr.message_shown",
    "Strace.Nlerr.request_shown",
    "Strace.Nlerr.attributes_iff_partial",
    "Strace.Nlerr.no_attributes",
    "Strace.Nlerr.depth_le",
    "Strace.Nlerr.depth_unbounded",
    "Strace.Nlerr.padding_not_skipped"
   ],
   "note": "False of the code for requests whose length is not a multiple of four: the padding the kernel puts before the attributes is not skipped. attributes_iff_partial says that this is the only case. Nesting is bounded by the length of the message only, and each level is a level of recursion."
  },
  {
   "property": "C118",
   "status": "partial",
   "theorems": [
    "Strace.Fcntl.own_iff",
    "Strace.Fcntl.own_partial",
    "Strace.Fcntl.history_partial",
    "Strace.Fcntl.history_counterexample",
    "Strace.Fcntl.getown",
    "Strace.Fcntl.input_early",
    "Strace.Fcntl.output_late",
    "Strace.Fcntl.no_argument",
    "Strace.Fcntl.other_command",
    "Strace.Fcntl.value_shown",
    "Strace.Fcntl.set_lock_shown",
    "Strace.Fcntl.get_lock_shown",
    "Strace.Fcntl.owner_shown",
    "Strace.Fcntl.fd_result",
    "Strace.Fcntl.hex_result",
    "Strace.Fcntl.explained"
   ],
   "note": "Full for the argument and for every command but F_GETOWN; the full claim on histories is false of the code: F_GETOWN decides on entering, from the result of the call before, whether its result is a process or a group (witness history_counterexample; own_iff shows that it is the only command)."
  },
  {
   "property": "C119",
   "status": "partial",
   "theorems": [
    "Strace.Quote.trail_text",
    "Strace.Quote.trail_complete_iff",
    "Strace.Quote.trail_complete_hex_partial",
    "Strace.Quote.trail_complete_short_partial",
    "Strace.Quote.trail_counterexample"
   ],
   "note": "False of the code: a value longer than the limit whose last byte within the limit is NUL is shown without that byte and without an ellipsis (trail_counterexample); trail_complete_iff gives exactly these cases, and trail_text what is shown in every case."
  },
  {
   "property": "C120",
   "status": "partial",
   "theorems": [
    "Strace.Filled.exact_partial",
    "Strace.Filled.only_written_partial",
    "Strace.Filled.leaks",
    "Strace.Filled.msgrcv_leaks",
    "Strace.Filled.failed_addr",
    "Strace.Filled.bounded_partial",
    "Strace.Filled.injected_counterexample"
   ],
   "note": "False of the code for msgrcv, KEYCTL_PKEY_*, KEYCTL_READ/DESCRIBE with too small a buffer, and getgroups(0, p), which show memory that has not been written (leaks, each with the contract of the call met; msgrcv_leaks for every message); proved for all other cases (exact_partial, only_written_partial). Failures: full (failed_addr). Injected results: proved for recv, keyctl, listmount (bounded_partial), false of the others (injected_counterexample)."
  },
  {
   "property": "C121",
   "status": "partial",
   "theorems": [
    "Strace.Inout.each_once",
    "Strace.Inout.input_partial",
    "Strace.Inout.adjtimex_input_lost",
    "Strace.Inout.sigaction_counterexample",
    "Strace.Inout.output_partial",
    "Strace.Inout.clock_nanosleep_counterexample",
    "Strace.Inout.only_partial",
    "Strace.Inout.waitid_counterexample",
    "Strace.Inout.waitid_times",
    "Strace.Inout.failed_only_input"
   ],
   "note": "Full: every argument once and in order (each_once); after a failure nothing but input (failed_only_input). False of the code, with witnesses, for adjtimex/clock_adjtime (input shown only as left by the call), rt_sigaction at the end of a mapping, interrupted clock_nanosleep with other flags, and waitid (usage and times that have not been written); proved for all else."
  },
  {
   "property": "C122",
   "status": "partial",
   "theorems": [
    "Strace.Expl.history_partial",
    "Strace.Expl.exit_iff",
    "Strace.Expl.exit_partial",
    "Strace.Expl.failed_partial",
    "Strace.Expl.failed_counterexample",
    "Strace.Expl.other_thread_counterexample",
    "Strace.Expl.speculation_counterexample"
   ],
   "note": "Proved for all histories and threads; exactly two kinds of calls borrow the text of another: NS_GET_NSTYPE that fails, and PR_GET_SPECULATION_CTRL of an unknown misfeature (exit_iff). The full claim is false of these, with witnesses."
  },
  {
   "property": "C123",
   "status": "partial",
   "theorems": [
    "Strace.Prctl.early_before",
    "Strace.Prctl.late_after",
    "Strace.Prctl.filled_late",
    "Strace.Prctl.name_set",
    "Strace.Prctl.name_got",
    "Strace.Prctl.filter_set",
    "Strace.Prctl.determined_iff",
    "Strace.Prctl.determines_partial",
    "Strace.Prctl.determines_counterexample",
    "Strace.Prctl.mdwe_counterexample",
    "Strace.Prctl.in_order",
    "Strace.Prctl.number_of",
    "Strace.Prctl.arch_filled_partial",
    "Strace.Prctl.arch_value",
    "Strace.Prctl.arch_no_argument",
    "Strace.Prctl.arch_filled_counterexample"
   ],
   "note": "Proved for all options; exactly four of them hide something the kernel looks at (determined_iff), and three codes of arch_prctl do not show what the kernel has written. Not in the model: the forms of numbers (flags, names), the buffer of PR_GET_AUXV and the structure of PR_SET_MM_MAP, which the decoder does not look at."
  },
  {
   "property": "C124",
   "status": "partial",
   "theorems": [
    "Strace.Ops.all_shown_partial",
    "Strace.Ops.in_order",
    "Strace.Ops.all_true",
    "Strace.Ops.early_only",
    "Strace.Ops.user_offset",
    "Strace.Ops.lookup_le",
    "Strace.Ops.regset_shown",
    "Strace.Ops.metadata_shown",
    "Strace.Ops.pkey_data",
    "Strace.Ops.dh_late",
    "Strace.Ops.signal_cut"
   ],
   "note": "in order, truth, separators, offsets of the user area are proved in full; that all is shown fails for the parameters of KEYCTL_DH_COMPUTE, which are shown as they are in the end (dh_late), and for the signal of PTRACE_CONT and similar requests, of which the high 32 bits are not shown (signal_cut); all_shown_partial has all the rest"
  },
  {
   "property": "C125",
   "status": "partial",
   "theorems": [
    "Strace.Table.summary_read_partial",
    "Strace.Table.history_sane",
    "Strace.Table.carry_too_long",
    "Strace.Table.longest_moved",
    "Strace.Table.average_low",
    "Strace.Table.pct_close",
    "Strace.Table.micro_near",
    "Strace.Table.usecs_close",
    "Strace.Table.mean_close"
   ],
   "note": "Double arithmetic is modelled as IEEE binary64. False for the columns longest and shortest when a time rounds up to a further digit (longest_moved, carry_too_long says exactly when): the row is moved. An average that is a whole number of microseconds may be shown as one less (average_low); usecs_close bounds it. Proved for all other cases."
  },
  {
   "property": "C126",
   "status": "partial",
   "theorems": [
    "Strace.Sigc.shown_partial",
    "Strace.Sigc.shown",
    "Strace.Sigc.in_order",
    "Strace.Sigc.not_before",
    "Strace.Sigc.failed_shows_addresses",
    "Strace.Sigc.results",
    "Strace.Sigc.mask_is_no_error",
    "Strace.Sigc.action_not_shown",
    "Strace.Sigc.action_shown_iff"
   ],
   "note": "Proved in full for all calls but rt_sigaction. False of the code for rt_sigaction: strace reads 56 bytes more than the kernel's structure has, and shows only the address of an action that is followed by unreadable memory (action_not_shown, with the exact condition in action_shown_iff)."
  },
  {
   "property": "C127",
   "status": "partial",
   "theorems": [
    "Strace.Tsf.time_close_partial",
    "Strace.Tsf.negative_rejected",
    "Strace.Tsf.no_unit_rejected",
    "Strace.Tsf.accepted_form",
    "Strace.Tsf.undefined_form",
    "Strace.Tsf.not_exact",
    "Strace.Tsf.not_defined",
    "Strace.Tsf.strtod_text",
    "Strace.Tsf.split_close"
   ],
   "note": "Numbers below 2^52 (a hundred years in microseconds) are read to within 1 + 2^-22 ns and 2^-53 of the time. False of the code beyond: 1e30 and -nan convert a double to an integer type that has no place for it (not_defined); undefined_form says that these are the only such texts. not_exact: 4.35s is a nanosecond short, as the result is cut off. strtod and the rounding of binary64 are contracts."
  },
  {
   "property": "C128",
   "status": "partial",
   "theorems": [
    "Strace.Fork.follows",
    "Strace.Fork.nobody_else",
    "Strace.Fork.ends_last",
    "Strace.Fork.ends",
    "Strace.Fork.ends_last_pipe_partial",
    "Strace.Fork.goes_on",
    "Strace.Fork.announced",
    "Strace.Fork.only_named",
    "Strace.Fork.pipe_counterexample",
    "Strace.Fork.attach_counterexample",
    "Strace.Fork.orphan_example",
    "Strace.Fork.let_go_example"
   ],
   "note": "The claim is false of the code in two cases, which have witnesses: with -o '|command' strace ends when it has no records, though a child waits for its first stop to be reported (ends_last_pipe_partial: nobody else is left); and with PTRACE_ATTACH (no PTRACE_SEIZE) a child made between attaching and the first stop is not followed. Everything else is proved for all interleavings. Changes of process numbers by execve are C29."
  },
  {
   "property": "C129",
   "status": "partial",
   "theorems": [
    "Strace.Battr.complete_partial",
    "Strace.Battr.truthful",
    "Strace.Battr.answered_partial",
    "Strace.Battr.address",
    "Strace.Battr.abbreviated",
    "Strace.Battr.detach_loses",
    "Strace.Battr.load_loses",
    "Strace.Battr.update_loses",
    "Strace.Battr.cookie_loses",
    "Strace.Battr.name_loses",
    "Strace.Battr.run_unanswered",
    "Strace.Battr.query_unanswered"
   ],
   "note": "complete_partial leaves out the five fields that strace does not show (the _loses theorems: two calls that the kernel can tell apart and that are shown alike), answered_partial the results that it does not show (the _unanswered theorems). Which bytes the kernel looks at is from the kernel's interface. What is at addresses in the attributes, and the information of BPF_OBJ_GET_INFO_BY_FD, is not modelled."
  },
  {
   "property": "C130",
   "status": "partial",
   "theorems": [
    "Strace.Memc.arguments",
    "Strace.Memc.no_more",
    "Strace.Memc.offset_bytes_partial",
    "Strace.Memc.offset_narrow",
    "Strace.Memc.offset_wraps",
    "Strace.Memc.indirect_mmap",
    "Strace.Memc.indirect_address",
    "Strace.Memc.new_address",
    "Strace.Memc.mincore_pages",
    "Strace.Memc.mincore_failed",
    "Strace.Memc.mincore_limit_partial",
    "Strace.Memc.mincore_limit_lost",
    "Strace.Memc.mincore_unreadable"
   ],
   "note": "Partial for two cases: the offset of mmap is shown in bytes if it is below 2^64 bytes (always so for 32-bit programs, offset_narrow); beyond that, which a 64-bit mmap in pages can give, the number shown wraps (offset_wraps); the limit of the vector of mincore is kept for fewer than 2^32 pages (mincore_limit_partial), beyond that it may be lost (mincore_limit_lost)."
  },
  {
   "property": "C131",
   "status": "partial",
   "theorems": [
    "Strace.Aio.request_partial",
    "Strace.Aio.submit_partial",
    "Strace.Aio.submit_negative",
    "Strace.Aio.events",
    "Strace.Aio.events_failed",
    "Strace.Aio.events_numbers",
    "Strace.Aio.setup_shown",
    "Strace.Aio.cancel_shown",
    "Strace.Aio.fsync_hides",
    "Strace.Aio.cancel_hides"
   ],
   "note": "Partial: of requests with operations other than pread, pwrite, preadv, pwritev and poll what is shown is right but not complete: the code leaves out the flags and the descriptor to be told (fsync_hides). Of io_cancel the address of the request, by which the kernel finds it, is not shown (cancel_hides)."
  },
  {
   "property": "C132",
   "status": "proved",
   "theorems": [
    "Strace.Lim.limit_exact",
    "Strace.Lim.limit_injective",
    "Strace.Lim.limit_named",
    "Strace.Lim.product_fits",
    "Strace.Lim.set_limits",
    "Strace.Lim.get_limits",
    "Strace.Lim.both_limits",
    "Strace.Lim.priorities"
   ],
   "note": "A reader of the text, written apart from the model, finds the limit for every style and width; the calls show what a reader finds to be the words in memory."
  },
  {
   "property": "C133",
   "status": "partial",
   "theorems": [
    "Strace.Net.protocol_family_partial",
    "Strace.Net.irda_wrong",
    "Strace.Net.protocol_number",
    "Strace.Net.protocol_injective",
    "Strace.Net.packet_injective",
    "Strace.Net.domain_high",
    "Strace.Net.pairs",
    "Strace.Net.sends"
   ],
   "note": "Partial because the code is wrong for AF_IRDA: it takes the names of the protocols of AF_CAN (irda_wrong); proved for the fourteen other families with names. If the register of the domain holds more than an int, the name of the protocol is not shown although the kernel ignores the rest (domain_high)."
  },
  {
   "property": "C134",
   "status": "partial",
   "theorems": [
    "Strace.Ring.setup_given",
    "Strace.Ring.setup_filled",
    "Strace.Ring.setup_failed",
    "Strace.Ring.setup_unreadable",
    "Strace.Ring.setup_balanced",
    "Strace.Ring.setup_phases",
    "Strace.Ring.enter_shown",
    "Strace.Ring.kcmp_first",
    "Strace.Ring.kcmp_file",
    "Strace.Ring.kcmp_epoll",
    "Strace.Ring.kcmp_unreadable",
    "Strace.Ring.kcmp_other",
    "Strace.Ring.completions_hidden"
   ],
   "note": "The claim holds of all members but one: the number of completions that a program asks for with IORING_SETUP_CQSIZE is never shown as it is given, only as the kernel leaves it (completions_hidden)."
  },
  {
   "property": "C135",
   "status": "partial",
   "theorems": [
    "Strace.Rreg.framed",
    "Strace.Rreg.ring_shown",
    "Strace.Rreg.operation",
    "Strace.Rreg.given",
    "Strace.Rreg.answered",
    "Strace.Rreg.exchanged",
    "Strace.Rreg.probed",
    "Strace.Rreg.probe_changed",
    "Strace.Rreg.miscounted",
    "Strace.Rreg.remaining",
    "Strace.Rreg.workers",
    "Strace.Rreg.group_hidden"
   ],
   "note": "The claim holds of all operations but one: the group of buffers whose status is asked for is read by the kernel, but it is shown only after success (group_hidden). The contents of arrays of buffers, descriptors, restrictions and resources are not modelled here."
  }
 ]
}