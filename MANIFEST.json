{
 "claims": [
  {
   "property": "C01",
   "status": "proved",
   "theorems": [
    "Verif.Bounds.contains_iff",
    "Verif.Bounds.contains_iff_bytes",
    "Verif.Bounds.contains_no_wrap",
    "Verif.Bounds.contains_sub",
    "Verif.Bounds.contains_excludes_heap_start",
    "Verif.Bounds.domesticate_spec",
    "Verif.Bounds.ofMapping_wf",
    "Verif.Bounds.ofMapping_exact"
   ],
   "note": "Hypothesis: base + header <= top without wrap, shown for every mapping that does not wrap. Finding: the header is excluded twice."
  },
  {
   "property": "C02",
   "status": "proved",
   "theorems": [
    "Verif.Callback.invoke_refuses",
    "Verif.Callback.invoke_copies"
   ],
   "note": ""
  },
  {
   "property": "C03",
   "status": "proved",
   "theorems": [
    "Verif.Strings.strdupOut_reads_inside",
    "Verif.Strings.strdupOut_safe",
    "Verif.Strings.strdupOut_null_iff",
    "Verif.Strings.strdupOut_faithful",
    "Verif.Strings.strdupOut_bytes",
    "Verif.Strings.strdupOut_malloc_failure_ub",
    "Verif.Strings.strdupOut_outcome",
    "Verif.Strings.strdupOut_block_iff"
   ],
   "note": "strdupOut_outcome: for every allocator, undefined exactly if there is a string to copy and no memory for it. The others assume that malloc returns blocks of the requested size and does not fail."
  },
  {
   "property": "C04",
   "status": "partial",
   "theorems": [
    "Verif.Strings.strdup_text_partial",
    "Verif.Strings.strdup_asks",
    "Verif.Strings.strdup_frame",
    "Verif.Strings.strdup_roundtrip_iff",
    "Verif.Strings.strdup_unterminated"
   ],
   "note": "Violated by the code: no terminating zero is written. The exact condition under which the round trip works is proved, and a counterexample is given."
  },
  {
   "property": "C05",
   "status": "proved",
   "theorems": [
    "Verif.Bounds.allocInSandbox_exact",
    "Verif.Bounds.allocInSandbox_room"
   ],
   "note": "snmalloc's umul and alloc are parameters/transcribed."
  },
  {
   "property": "C06",
   "status": "proved",
   "theorems": [
    "Verif.Path.str_parse",
    "Verif.Path.parse_no_slash",
    "Verif.Path.parse_isAbsolute",
    "Verif.Path.parse_str",
    "Verif.Path.ofView_ok",
    "Verif.Path.ofView_empty_ub"
   ],
   "note": ""
  },
  {
   "property": "C07",
   "status": "proved",
   "theorems": [
    "Verif.Path.canonicalise_shape",
    "Verif.Path.canonicalise_idem",
    "Verif.Path.canonicalise_sublist",
    "Verif.Path.canonicalise_failure_shape"
   ],
   "note": ""
  },
  {
   "property": "C08",
   "status": "proved",
   "theorems": [
    "Verif.Path.canonicalise_eq_resolve",
    "Verif.Path.canonicalise_succeeds_iff",
    "Verif.Path.makeAbsolute_canonicalise",
    "Verif.Path.makeAbsolute_absolute"
   ],
   "note": ""
  },
  {
   "property": "C09",
   "status": "partial",
   "theorems": [
    "Verif.Path.canonicalise_walk_partial",
    "Verif.Path.canonicalise_walk_iff",
    "Verif.Path.canonicalise_dot_disagrees"
   ],
   "note": "Violated by the code when a '.' component precedes '..' (counterexample proved); proved for all paths without such a pair, and an exact condition for all paths."
  },
  {
   "property": "C10",
   "status": "proved",
   "theorems": [
    "Verif.FileTree.lookup_refines",
    "Verif.FileTree.lookup_none_iff",
    "Verif.FileTree.exports_disjoint",
    "Verif.FileTree.namesOf_absText",
    "Verif.FileTree.export_lookup_text",
    "Verif.FileTree.unreachable_export",
    "Verif.FileTree.malformed_texts",
    "Verif.FileTree.empty_text_throws"
   ],
   "note": ""
  },
  {
   "property": "C100",
   "status": "partial",
   "theorems": [
    "Verif.Throw.throw_control_stack_partial",
    "Verif.Throw.throw_no_deadlock",
    "Verif.Throw.throw_calls_terminate",
    "Verif.Throw.throw_own_reply",
    "Verif.Throw.throw_idle",
    "Verif.Throw.throw_depth",
    "Verif.Throw.abandoned_never_return",
    "Verif.Throw.caught_answer_misdelivered",
    "Verif.Throw.caught_exception_hangs",
    "Verif.Throw.load_throw_hangs"
   ],
   "note": "holds if no handler that caught an exception of a handler further in returns an answer, and none throws while the library loads. Otherwise false: such an answer goes to the wrong callback in every case (caught_answer_misdelivered), which can hang both sides (caught_exception_hangs), and an exception during loading makes all later calls hang (load_throw_hangs)"
  },
  {
   "property": "C101",
   "status": "partial",
   "theorems": [
    "Verif.Records.records_distinct_partial",
    "Verif.Records.stale_only_while_freeing",
    "Verif.Records.records_none_lost",
    "Verif.Records.one_thread_serial",
    "Verif.Records.records_distinct_one_thread",
    "Verif.Records.shared_record",
    "Verif.Records.shared_later",
    "Verif.Records.stale_reachable"
   ],
   "note": "holds when operations on metadata_range do not overlap, so for every sandbox with one thread; false otherwise, for every allocator (shared_record), because the range has no lock; and the page map names a returned record until the host is asked to forget it (stale_reachable, stale_only_while_freeing). That SmallBuddyRange has no lock of its own is taken from snmalloc, which is not in the repository"
  },
  {
   "property": "C102",
   "status": "partial",
   "theorems": [
    "Verif.OpenMode.admits_iff",
    "Verif.OpenMode.open_as_native_partial",
    "Verif.OpenMode.open_refused",
    "Verif.OpenMode.trapped_mode",
    "Verif.OpenMode.c_open_mode_partial",
    "Verif.OpenMode.tmpfile_mode_lost",
    "Verif.OpenMode.c_openat_mode_partial",
    "Verif.OpenMode.c_open_leftover",
    "Verif.OpenMode.c_openat_leftover",
    "Verif.OpenMode.own_open_admitted"
   ],
   "note": "holds exactly for arguments in which open would ignore nothing (admits_iff); false otherwise: openat2 refuses with EINVAL what open ignores (open_refused), the C function openat reads a mode that was not passed (c_openat_leftover), and open loses the mode of O_TMPFILE (tmpfile_mode_lost). What open ignores and openat2 refuses is from the manual and Linux's headers for x86-64"
  },
  {
   "property": "C103",
   "status": "partial",
   "theorems": [
    "Verif.Alloc.count_respected_partial",
    "Verif.Alloc.count_ignored",
    "Verif.Alloc.neighbour_hit"
   ],
   "note": "holds for a count of type size_t; false for every other integer type, for which overload resolution picks the constructor of a single object (count_ignored), so that elements of the supposed array are other objects (neighbour_hit). Overload resolution itself is C++'s and stated in the model"
  },
  {
   "property": "C104",
   "status": "partial",
   "theorems": [
    "Verif.RefArgs.references_read_partial",
    "Verif.RefArgs.references_iff",
    "Verif.RefArgs.reference_lost",
    "Verif.RefArgs.alias_lost"
   ],
   "note": "holds for functions that do not store through references, and, if no variable is passed twice, exactly for calls that leave all variables as they were (references_iff); false otherwise: the frame has copies, which are not copied back"
  },
  {
   "property": "C105",
   "status": "partial",
   "theorems": [
    "Verif.Timed.umtx_exact",
    "Verif.Timed.umtx_told",
    "Verif.Timed.futex_exact",
    "Verif.Timed.futex_ends",
    "Verif.Timed.futex_never",
    "Verif.Timed.futex_told_partial",
    "Verif.Timed.death_unnoticed",
    "Verif.Timed.futex_wait_iff",
    "Verif.Timed.caller_told_iff",
    "Verif.Timed.ended_told_iff"
   ],
   "note": "proved for FreeBSD; on Linux a wait that is interrupted begins again with its full timeout, so that it ends with the first tenth of a second without signals (futex_exact, futex_told_partial) and never if there is none (death_unnoticed). When the kernel ends a sleep is assumed"
  },
  {
   "property": "C106",
   "status": "proved",
   "theorems": [
    "Verif.Hb.control_synchronises",
    "Verif.Hb.marks_are_events",
    "Verif.Hb.release_needed"
   ],
   "note": "for a host and a sandbox that co-operate as in C29, from a fresh sandbox. The order is computed with vector clocks that follow the release and acquire operations of the semaphores and of is_child_loaded; runs are interleavings of atomic steps"
  },
  {
   "property": "C107",
   "status": "partial",
   "theorems": [
    "Verif.Signals.handlers_safe_calm_partial",
    "Verif.Signals.calls_wait",
    "Verif.Signals.only_calm",
    "Verif.Signals.handlers_safe_partial",
    "Verif.Signals.handlers_safe_leaving_partial",
    "Verif.Signals.waiting_aborts_host",
    "Verif.Signals.reply_swapped",
    "Verif.Signals.begins_in_handler",
    "Verif.Signals.reporting_aborts_debug",
    "Verif.Signals.loading_broken",
    "Verif.Signals.loaded_aborts_debug",
    "Verif.Signals.destroying_aborts_sandbox",
    "Verif.Signals.leaving_aborts_sandbox",
    "Verif.Signals.only_quiet",
    "Verif.Signals.signal_anywhere"
   ],
   "note": "the harmless places are determined exactly, in both builds, while the sandbox loads, is in use and is destroyed: at those of Calm any number of nested signals does no harm (handlers_safe_calm_partial, and calls_wait for functions that begin inside a handler), and at every other place one signal can abort a process, swap replies or run a function inside the handler (only_calm, with the particular harm in the theorems after it). Violated by the code at the latter. One thread of the sandbox; memory for arguments is not modelled here"
  },
  {
   "property": "C108",
   "status": "partial",
   "theorems": [
    "Verif.SigMem.requests_survive_partial",
    "Verif.SigMem.can_request_iff",
    "Verif.SigMem.nested_request_hangs",
    "Verif.SigMem.interrupted_read_ends"
   ],
   "note": "holds if all handlers are installed with SA_RESTART and none that interrupts a memory request makes one itself (can_request_iff: such a request is possible exactly when nothing interrupted is inside one); otherwise a waiting read ends with EINTR, which ends the sandbox, or the handler waits forever for the lock that its own thread holds; both proved. One thread; the write of a request never waits"
  },
  {
   "property": "C109",
   "status": "partial",
   "theorems": [
    "Verif.Resize.shared_size_kept_partial",
    "Verif.Resize.size_changes_iff",
    "Verif.Resize.uring_truncates",
    "Verif.Resize.closed_stream_truncates"
   ],
   "note": "proved for hosts whose three standard streams are open and for all system calls but those of io_uring; without io_uring the exact condition is size_changes_iff. False with io_uring, by which the process may have the kernel open what it names (C97), and in hosts with a closed stream, in whose place the library finds the shared memory or the page map. Which calls change sizes is taken from the manual"
  },
  {
   "property": "C11",
   "status": "proved",
   "theorems": [
    "Verif.FileTree.lookup_authority"
   ],
   "note": ""
  },
  {
   "property": "C110",
   "status": "partial",
   "theorems": [
    "Verif.Token.raises_iff_partial",
    "Verif.Token.later_call",
    "Verif.Token.returns_iff",
    "Verif.Token.next_call_ends_host",
    "Verif.Token.crash_makes_call_return"
   ],
   "note": "violated by the code; what a call does is determined exactly for every header (later_call): it raises iff both semaphores are clear and the flag is set (with assertions, also the other flag clear). A set host semaphore makes it return although nothing has run, which happens without hostility if the sandbox ends just after a function (crash_makes_call_return); and whatever the header, the second call ends the host (next_call_ends_host)"
  },
  {
   "property": "C111",
   "status": "partial",
   "theorems": [
    "Verif.Make.reported_iff_partial",
    "Verif.Make.ends_exactly",
    "Verif.Make.shortage_ends_host",
    "Verif.Make.refusal_not_reported",
    "Verif.BsdMake.bsd_ends_exactly",
    "Verif.BsdMake.bsd_shortage"
   ],
   "note": "violated by the code: the only refusal that is reported is that of the service thread (reported_iff_partial, exact); every other ends the host, by abort, exit or a write to memory that is not there; ends_exactly gives the outcome for every combination. A refusal of vfork is C46, the host's own heap memory is left out, and what a failed mapping does to the address space is C50. The same for FreeBSD, exactly: bsd_ends_exactly, where a failed pdfork leaves a descriptor without a value"
  },
  {
   "property": "C112",
   "status": "partial",
   "theorems": [
    "Verif.Make.child_table",
    "Verif.Make.child_table_open_partial",
    "Verif.Make.closed_stream_filled",
    "Verif.Make.daemon_pagemap",
    "Verif.BsdMake.bsd_program"
   ],
   "note": "exact for every host with room (child_table): holds iff the three standard streams are open; in place of a closed one the sandbox gets the shared memory, then the page map (writable, if it is the first sandbox), then the library directories or the host's own ends of the sockets"
  },
  {
   "property": "C113",
   "status": "partial",
   "theorems": [
    "Verif.Cycle.fresh_makes_partial",
    "Verif.Cycle.sandbox_costs",
    "Verif.Cycle.sandbox_costs_four",
    "Verif.Cycle.cycles_bounded",
    "Verif.Cycle.steady_cycle",
    "Verif.Cycle.steady_count",
    "Verif.Cycle.steady_soon",
    "Verif.Cycle.fresh_count",
    "Verif.Cycle.usual_limit"
   ],
   "note": "violated by the code, and counted exactly: every sandbox whose process runs costs the host four descriptors for ever, and every sandbox whose process was started at least one (sandbox_costs, for every host and all answers of the system). So a host with n free descriptors makes at most n sandboxes, and the constructor of a further one does not return. From the first sandbox on the exact number is given by fresh_count: 253 with the usual limit of 1024 and three open streams; then the host exits, or, for other limits, waits for ever in the constructor. fresh_makes_partial: until then every constructor returns. Hosts whose vfork fails are left out; such a host, if it has no other child, is ended at the latest when it destroys the sandbox (Family.failed_start_alone, C120)"
  },
  {
   "property": "C114",
   "status": "proved",
   "theorems": [
    "Verif.BsdMake.accounted",
    "Verif.BsdMake.eof_iff",
    "Verif.BsdMake.in_use",
    "Verif.BsdMake.all_returned",
    "Verif.BsdMake.drains",
    "Verif.BsdMake.cycles_unlimited"
   ],
   "note": "for every interleaving of any number of sandboxes, their ends, processes they start, destructions and the memory service; contrast C113 for Linux, where vfork loses four descriptors each time"
  },
  {
   "property": "C115",
   "status": "partial",
   "theorems": [
    "Verif.BsdMake.no_strays_partial",
    "Verif.BsdMake.process_survives",
    "Verif.Seccomp.no_new_process"
   ],
   "note": "violated on FreeBSD: capability mode allows fork, and nothing limits it; at every moment a sandbox can start a process that outlives it, with its memory and its socket, and the memory service keeps the entry with the address of the destroyed object for as long as it lives (process_survives, for every continuation). no_strays_partial: without a fork nothing is left, and on Linux the filter allows none (no_new_process)"
  },
  {
   "property": "C116",
   "status": "partial",
   "theorems": [
    "Verif.BsdMake.isolated_partial",
    "Verif.BsdMake.isolated_iff",
    "Verif.BsdMake.neighbour_memory",
    "Verif.BsdMake.bsd_program",
    "Verif.BsdMake.pagemap_writable_iff",
    "Verif.Make.child_objects",
    "Verif.Make.neighbour_memory"
   ],
   "note": "violated by the code if the host had a standard stream closed when it made its first sandbox: the shared memory of the first takes the number and is handed to every later sandbox, for writing (neighbour_memory, for every such host, both platforms). isolated_iff gives the exact condition on FreeBSD for every history, through the whole constructor and the Capsicum policy; child_objects says for Linux what a new sandbox has, for every state of the host. Processes that another sandbox has started itself are C115"
  },
  {
   "property": "C117",
   "status": "proved",
   "theorems": [
    "Verif.Run.step_ends",
    "Verif.Run.user_ends",
    "Verif.Run.careful_goes_on"
   ],
   "note": "one thread of the child; the path of an openat is a readable string that does not name the process's own descriptors (those are C42); the functions of the host return; whether the exception for an empty function arises depends on whether the request passes the checks before it (C80, C90)"
  },
  {
   "property": "C118",
   "status": "partial",
   "theorems": [
    "Verif.Path.here_same_file_partial",
    "Verif.Path.here_text",
    "Verif.Path.here_unreachable",
    "Verif.Path.here_ends_iff"
   ],
   "note": "violated by the code if the system has no working directory to give (a view is made from a null pointer: undefined, exactly then, here_ends_iff) or gives one that cannot be reached from the root (here_unreachable); proved otherwise"
  },
  {
   "property": "C119",
   "status": "partial",
   "theorems": [
    "Verif.Pool.own_allocator_partial",
    "Verif.Pool.allocator_in_chunk_partial",
    "Verif.Pool.shared_allocator",
    "Verif.Pool.chunk_lost",
    "Verif.Pool.one_thread_owns"
   ],
   "note": "violated by the code: allocator_range has no lock. Two threads that ask while the pool is empty and the range has a block left get the same allocator, from every state and for every range (shared_allocator); if it has none left, one chunk of the sandbox's memory is lost (chunk_lost). The partial theorems: if no thread enters the range while another is in it, every claim holds; one_thread_owns: so it does in a sandbox in which one thread allocates"
  },
  {
   "property": "C12",
   "status": "proved",
   "theorems": [
    "Verif.FileTree.refused_iff",
    "Verif.FileTree.added_reachable"
   ],
   "note": ""
  },
  {
   "property": "C120",
   "status": "partial",
   "theorems": [
    "Verif.Family.own_child_partial",
    "Verif.Family.query_truth_partial",
    "Verif.Family.failed_start_ends_host",
    "Verif.Family.failed_start_alone",
    "Verif.Family.failed_start_kills_all",
    "Verif.Family.reaped_ends_host"
   ],
   "note": "proved for hosts in which vfork never fails and which leave the waiting for sandboxes to the library; violated otherwise, from every state: a sandbox whose vfork failed takes the ends of the others (failed_start_ends_host) and its termination signals every process (failed_start_kills_all); a host that waits for its children itself is ended by the next query (reaped_ends_host). The vfork handle (Linux); a process descriptor names its process for ever (C69). One thread; several are C70"
  },
  {
   "property": "C121",
   "status": "partial",
   "theorems": [
    "Verif.BsdEnd.bsd_end_to_end_partial",
    "Verif.BsdEnd.bsd_end_to_end_old_partial",
    "Verif.BsdEnd.bsd_openat_end_to_end",
    "Verif.BsdEnd.access_of_a_file_fails",
    "Verif.BsdEnd.bsd_trap_ends",
    "Verif.BsdEnd.bsd_openat_ends",
    "Verif.BsdPath.stat_overruns",
    "Verif.BsdPath.stat_misread"
   ],
   "note": "proved for open, openat and access; what is missing is freebsd11_stat: the theorem asks for 224 bytes at the buffer, but the program's structure has 120, the rest is overwritten (stat_overruns) and the fields are read from wrong places (stat_misread), C99. access of an exported file always fails, as the code passes a null path (access_of_a_file_fails). One thread of the child; nobody else writes the shared memory during the call; openat of relative paths is C72 and C98"
  },
  {
   "property": "C122",
   "status": "proved",
   "theorems": [
    "Verif.BsdEnd.bsd_new_sandbox_opens_only_libraries",
    "Verif.BsdEnd.bsd_new_sandbox_openat_only_libraries"
   ],
   "note": "under the conditions of C121: enough memory in the child, one thread, nobody else writes the shared memory during the call; openat of relative paths is C72"
  },
  {
   "property": "C123",
   "status": "proved",
   "theorems": [
    "Verif.BsdNet.bsd_network_ends",
    "Verif.BsdNet.bsd_network_call_end_to_end",
    "Verif.BsdNet.bsd_bad_network_call_refused",
    "Verif.BsdNet.bsd_closed_socket_ends_sandbox",
    "Verif.BsdNet.bsd_empty_function_throws",
    "Verif.BsdNet.bsd_hostile_network_outcome",
    "Verif.BsdNet.bsd_hostile_network_calls",
    "Verif.BsdNet.bsd_no_network_by_default"
   ],
   "note": "one thread of the child, nobody else writes the shared memory meanwhile; the functions are assumed to return results of system calls; the layout of libc++'s tuple is assumed"
  },
  {
   "property": "C124",
   "status": "partial",
   "theorems": [
    "Verif.BsdRel.bsd_relative_openat_partial",
    "Verif.BsdRel.bsd_relative_openat_unfaithful",
    "Verif.BsdRel.bsd_closed_directory_ends_sandbox",
    "Verif.BsdRel.bsd_hostile_relative_openat",
    "Verif.BsdRel.bsd_relative_ends",
    "Verif.BsdRel.bsd_relative_openat_faithful_iff",
    "Verif.BsdRel.bsd_handler_ends_iff"
   ],
   "note": "partial: the program finds the number that the file has in the host, or EPERM for every failure (same defect as C92; exact condition proved); a directory that is not open ends the sandbox; what the host does, and how every call ends, is proved in full"
  },
  {
   "property": "C125",
   "status": "partial",
   "theorems": [
    "Verif.BsdFamily.bsd_own_child_partial",
    "Verif.BsdFamily.bsd_query_truth_partial",
    "Verif.BsdFamily.bsd_terminate_partial",
    "Verif.BsdFamily.bsd_destroy_partial",
    "Verif.BsdFamily.bsd_host_ends_partial",
    "Verif.BsdFamily.failed_pdfork_ends_host",
    "Verif.BsdFamily.failed_pdfork_takes_other",
    "Verif.BsdFamily.failed_pdfork_hides_end",
    "Verif.BsdFamily.closed_process_lost",
    "Verif.BsdFamily.closed_queue_ends_host"
   ],
   "note": "proved for every run in which pdfork never fails and the host closes only what it opened; violated by the code if pdfork fails, from every state: the value that happens to be in the variable is used, and if it names the process of another sandbox, the new one answers for it, kills it (failed_pdfork_takes_other), and takes its end from it, so that destroying the other blocks for ever (failed_pdfork_hides_end)"
  },
  {
   "property": "C126",
   "status": "partial",
   "theorems": [
    "Verif.BsdName.bsd_lookup_partial",
    "Verif.BsdName.bsd_failed_lookup",
    "Verif.BsdName.bsd_denied_lookup",
    "Verif.BsdName.bsd_error_told",
    "Verif.BsdName.bsd_negative_told_success",
    "Verif.BsdName.bsd_canon_leak",
    "Verif.BsdName.bsd_hostile_lookup",
    "Verif.BsdName.bsd_refused",
    "Verif.BsdName.bsd_own_answer",
    "Verif.BsdName.bsd_freed_iff",
    "Verif.BsdName.bsd_lookup_ends",
    "Verif.BsdName.bsd_lookup_exact"
   ],
   "note": "partial: the list, the memory and the function called are proved in full, and error codes, being positive on FreeBSD, are told exactly (bsd_error_told; unlike C90); violated by the code: pointers to canonical names of the host are copied as they are (bsd_canon_leak), a negative result of the host's own function is told as -errno, success if errno is 0 (bsd_negative_told_success), and after every failure *res is what was on the stack"
  },
  {
   "property": "C127",
   "status": "proved",
   "theorems": [
    "Verif.BsdRun.run_transparent",
    "Verif.BsdRun.step_alike",
    "Verif.BsdRun.end_transparent",
    "Verif.BsdRun.runs_agree",
    "Verif.BsdRun.meant_unique",
    "Verif.BsdRun.plain_same_iff",
    "Verif.BsdRun.meant_total",
    "Verif.BsdRun.step_total",
    "Verif.BsdRun.step_unique",
    "Verif.BsdRun.step_proper",
    "Verif.BsdRun.steps_unique",
    "Verif.BsdRun.steps_iff_behaves",
    "Verif.BsdRun.proper_run_transparent"
   ],
   "note": "open, freebsd11_stat with 224 bytes, access, openat with absolute and relative paths (for the latter with the answer that C124 describes), bind, connect, registered callbacks, calls that are refused (bad sockets and addresses, callbacks that do not exist), system calls that are not emulated, and getaddrinfo; one thread of the child, no other writer to the shared memory while it waits; the calls are made properly (Behaves: strings, buffers and descriptors that there are; proper_run_transparent)"
  },
  {
   "property": "C128",
   "status": "proved",
   "theorems": [
    "Verif.BsdRun.step_ends",
    "Verif.BsdRun.step_unreadable",
    "Verif.BsdRun.careful_goes_on",
    "Verif.BsdRun.too_few_blocks",
    "Verif.BsdRun.user_ends"
   ],
   "note": "one thread of the child; the functions of the host return; whether the exception for an empty function arises depends on whether the request passes the checks before it (C123, C126)"
  },
  {
   "property": "C129",
   "status": "proved",
   "theorems": [
    "Verif.BsdAuthority.bsd_authority",
    "Verif.BsdAuthority.bsd_isolation",
    "Verif.BsdAuthority.bsd_every_message_answered",
    "Verif.BsdAuthority.bsd_idle",
    "Verif.BsdAuthority.bsd_socket_answer",
    "Verif.BsdAuthority.bsd_socket_denied",
    "Verif.BsdAuthority.bsd_socket_told",
    "Verif.BsdAuthority.told_unique"
   ],
   "note": "one message is handled at a time in each library; for the answer the host's allocator does not fail, the functions of the host return and none is empty (C98 and C126 say what happens otherwise); the memory service, which is the same code as on Linux, is not repeated (C84)"
  },
  {
   "property": "C13",
   "status": "partial",
   "theorems": [
    "Verif.FileTree.dir_permanent_partial",
    "Verif.FileTree.dir_permanent_iff",
    "Verif.FileTree.dir_handle_replaced"
   ],
   "note": "Violated by the code: an export at or above the directory's path replaces it (dir_handle_replaced). Proved for all later exports elsewhere, and exactly for which exports it holds (dir_permanent_iff)."
  },
  {
   "property": "C130",
   "status": "partial",
   "theorems": [
    "Verif.BsdBalance.bsd_message_leaks_iff",
    "Verif.BsdBalance.bsd_messages_leak_exactly",
    "Verif.BsdBalance.bsd_messages_keep_descriptors_partial",
    "Verif.BsdBalance.bsd_openat_leaks",
    "Verif.BsdBalance.bsd_openat_exhausts",
    "Verif.BsdBalance.bsd_exhausted_loses",
    "Verif.BsdBalance.bsd_user_message_exact",
    "Verif.BsdBalance.bsd_user_message_keeps",
    "Verif.BsdBalance.bsd_all_messages_leak_exactly",
    "Verif.BsdBalance.bsd_thrown_keeps_descriptors",
    "Verif.BsdBalance.bsd_every_message_leaks_exactly",
    "Verif.BsdBalance.bsd_sandboxes_leak_exactly",
    "Verif.BsdBalance.bsd_other_requests_cost_nothing",
    "Verif.BsdBalance.bsd_libs_hold_grants"
   ],
   "note": "violated by the code: every successful relative openat leaves a descriptor open in the host, without limit (exactly those: bsd_message_leaks_iff, and one for each: bsd_messages_leak_exactly); proved for all other requests with at most one descriptor attached; a callback of the user costs the host nothing but what its function returns or keeps (bsd_user_message_exact)"
  },
  {
   "property": "C131",
   "status": "proved",
   "theorems": [
    "Verif.BsdWhole.bsd_library_transparent",
    "Verif.BsdWhole.turn_matches",
    "Verif.BsdWhole.bsd_client_ends",
    "Verif.BsdWhole.toEnd_alike",
    "Verif.BsdWhole.bsd_no_frame_no_call",
    "Verif.BsdWhole.bsd_returns_at_end",
    "Verif.BsdWhole.bsd_called_unique",
    "Verif.BsdWhole.bsd_calls_unique",
    "Verif.BsdWhole.bsd_called_iff_willing",
    "Verif.BsdWhole.bsd_calls_iff_able",
    "Verif.BsdWhole.bsd_proper_library_transparent"
   ],
   "note": "composes C81 and C127; the same conditions as C94"
  },
  {
   "property": "C132",
   "status": "proved",
   "theorems": [
    "Verif.Authority.path_told",
    "Verif.Authority.openat_told",
    "Verif.Authority.socket_told",
    "Verif.Authority.lookup_told",
    "Verif.Authority.lookupTold_unique",
    "Verif.Authority.user_told",
    "Verif.Authority.userTold_unique",
    "Verif.Authority.builtin_reply",
    "Verif.Authority.pathTold_unique",
    "Verif.Authority.relTold_unique",
    "Verif.Authority.told_unique",
    "Verif.BsdAuthority.bsd_socket_told",
    "Verif.BsdAuthority.told_unique",
    "Verif.BsdAuthority.bsd_path_told",
    "Verif.BsdAuthority.bsd_openat_told",
    "Verif.BsdAuthority.bsd_lookup_told",
    "Verif.BsdAuthority.lookupTold_unique",
    "Verif.BsdAuthority.bsd_user_told",
    "Verif.BsdAuthority.userTold_unique",
    "Verif.BsdAuthority.pathTold_unique",
    "Verif.BsdAuthority.relTold_unique"
   ],
   "note": "for messages that are answered (C87 and C98 say which); the host's allocator gives blocks of the size asked for; for lookups the sandbox's allocator gives blocks in its memory and the lists fit in memory"
  },
  {
   "property": "C133",
   "status": "proved",
   "theorems": [
    "Verif.Authority.same_grants_same_treatment",
    "Verif.Authority.messages_leave_no_trace",
    "Verif.BsdAuthority.bsd_same_grants_same_treatment",
    "Verif.BsdAuthority.bsd_messages_leave_no_trace"
   ],
   "note": "fewer than 2^31 - 8 functions are registered for a sandbox; one message is handled at a time in each library; on FreeBSD the memory service is not repeated (C84)"
  },
  {
   "property": "C14",
   "status": "proved",
   "theorems": [
    "Verif.PathSyscall.serve_confined",
    "Verif.PathSyscall.open_served",
    "Verif.PathSyscall.openat_own_descriptor",
    "Verif.PathSyscall.serve_total"
   ],
   "note": ""
  },
  {
   "property": "C15",
   "status": "proved",
   "theorems": [
    "Verif.PathSyscall.serve_refused",
    "Verif.PathSyscall.serve_total",
    "Verif.PathSyscall.openat_result",
    "Verif.PathSyscall.access_file_fails",
    "Verif.PathSyscall.serve_ends_iff",
    "Verif.PathSyscall.bad_path_refused"
   ],
   "note": "openat_result and access_file_fails record findings: openat is not among the requests that refuse a bad pointer."
  },
  {
   "property": "C16",
   "status": "proved",
   "theorems": [
    "Verif.Callback.construct_table",
    "Verif.Callback.register_fresh",
    "Verif.Callback.register_overflow",
    "Verif.Callback.register_preserves"
   ],
   "note": ""
  },
  {
   "property": "C17",
   "status": "proved",
   "theorems": [
    "Verif.Callback.handle_answers",
    "Verif.Callback.default_entry_refused",
    "Verif.Callback.answered_counts",
    "Verif.Callback.handler_throws_unanswered"
   ],
   "note": "handler_throws_unanswered: the case of a throwing user handler is outside the property; exactly then the turn ends with the exception, and it leaves the request unanswered."
  },
  {
   "property": "C18",
   "status": "proved",
   "theorems": [
    "Verif.Net.sock_refused",
    "Verif.Net.sock_mediated",
    "Verif.Net.sock_calls"
   ],
   "note": ""
  },
  {
   "property": "C19",
   "status": "proved",
   "theorems": [
    "Verif.Net.invoke_default_deny",
    "Verif.Net.invoke_last"
   ],
   "note": ""
  },
  {
   "property": "C20",
   "status": "proved",
   "theorems": [
    "Verif.AddrInfo.gai_stores_inside",
    "Verif.AddrInfo.gai_refused",
    "Verif.AddrInfo.gai_alloc_failure",
    "Verif.AddrInfo.gai_empty_list"
   ],
   "note": ""
  },
  {
   "property": "C21",
   "status": "partial",
   "theorems": [
    "Verif.AddrInfo.gai_list_partial",
    "Verif.AddrInfo.gai_canon_leak",
    "Verif.AddrInfo.gai_canon_copied",
    "Verif.AddrInfo.gai_transient_leak",
    "Verif.AddrInfo.gai_error_mangled"
   ],
   "note": "Violated by the code: ai_canonname is copied as a host pointer, and host ai_addr/ai_next pointers are visible in sandbox memory for a moment (both proved)."
  },
  {
   "property": "C22",
   "status": "proved",
   "theorems": [
    "Verif.Rpc.alloc_decided",
    "Verif.Rpc.alloc_claims"
   ],
   "note": "snmalloc's range allocator is a parameter with the containment laws of Verif.Rpc.Spec.Contained (shown satisfiable by a stand-in buddy allocator)"
  },
  {
   "property": "C23",
   "status": "proved",
   "theorems": [
    "Verif.Rpc.dealloc_decided",
    "Verif.Rpc.dealloc_clears",
    "Verif.Rpc.release_once"
   ],
   "note": ""
  },
  {
   "property": "C24",
   "status": "proved",
   "theorems": [
    "Verif.Rpc.request_confined",
    "Verif.Rpc.others_unchanged",
    "Verif.Rpc.owned_was_granted"
   ],
   "note": "any interleaving of requests of all sandboxes and host operations"
  },
  {
   "property": "C25",
   "status": "partial",
   "theorems": [
    "Verif.Rpc.never_twice_partial",
    "Verif.Rpc.handed_out_twice"
   ],
   "note": "holds when releases are aligned to their size; the service does not check this, and handed_out_twice shows a reachable violation"
  },
  {
   "property": "C26",
   "status": "partial",
   "theorems": [
    "Verif.Rpc.one_answer_partial",
    "Verif.Rpc.answers_sequential",
    "Verif.Rpc.served_for_owner",
    "Verif.Rpc.unknown_kind_accepted"
   ],
   "note": "one ordered answer per request or termination holds; a request of unknown kind is answered with success"
  },
  {
   "property": "C27",
   "status": "proved",
   "theorems": [
    "Verif.Teardown.destroy_clears",
    "Verif.Teardown.destroy_others"
   ],
   "note": ""
  },
  {
   "property": "C28",
   "status": "partial",
   "theorems": [
    "Verif.Teardown.destroy_only_live",
    "Verif.Teardown.records_conserved",
    "Verif.Teardown.delete_count_partial",
    "Verif.Teardown.deleted_twice"
   ],
   "note": "no sandbox-supplied or dead record is ever deleted; records of one-chunk blocks are deleted once; records of larger blocks are deleted once per chunk (double free, deleted_twice)"
  },
  {
   "property": "C29",
   "status": "proved",
   "theorems": [
    "Verif.Token.control_stack",
    "Verif.Token.token_unique",
    "Verif.Token.one_side_runs",
    "Verif.Token.depth_restored",
    "Verif.Token.idle_between_calls",
    "Verif.Token.no_deadlock",
    "Verif.Token.calls_terminate",
    "Verif.Token.loading_call_deadlocks"
   ],
   "note": "handlers that run while the sandbox is still loading must make no call: loading_call_deadlocks shows that such a call deadlocks"
  },
  {
   "property": "C30",
   "status": "proved",
   "theorems": [
    "Verif.Token.own_reply",
    "Verif.Token.requests_distinct"
   ],
   "note": ""
  },
  {
   "property": "C31",
   "status": "partial",
   "theorems": [
    "Verif.Token.crash_reported_partial",
    "Verif.Token.crash_bounded_partial",
    "Verif.Token.later_call_aborts",
    "Verif.Token.loading_crash_hangs"
   ],
   "note": "the call in progress returns or raises for a loaded sandbox; later calls abort the host (later_call_aborts), and a crash while loading hangs the first call (loading_crash_hangs)"
  },
  {
   "property": "C32",
   "status": "partial",
   "theorems": [
    "Verif.Token.host_nesting_partial",
    "Verif.Token.abort_cause",
    "Verif.Token.one_write_aborts",
    "Verif.Token.hostile_aborts_host"
   ],
   "note": "violated by the code at every moment (one_write_aborts: in every state, whatever came before, one write to the header makes it certain that the host is aborted at its next use of the sandbox); the host's nesting is kept for every hostile behaviour, and signalling a set semaphore is the only cause of an abort in a release build"
  },
  {
   "property": "C33",
   "status": "proved",
   "theorems": [
    "Verif.Sem.one_success_per_signal",
    "Verif.Sem.no_lost_wakeup",
    "Verif.Sem.active_succeeds",
    "Verif.Sem.second_signal_aborts",
    "Verif.Sem.alternating_never_aborts"
   ],
   "note": "futex compare-and-sleep is atomic (kernel)"
  },
  {
   "property": "C34",
   "status": "partial",
   "theorems": [
    "Verif.Child.exit_status_stable",
    "Verif.Child.exit_code_faithful_partial",
    "Verif.Child.running_reported",
    "Verif.Child.life_reported_partial",
    "Verif.Child.killed_looks_like_success",
    "Verif.Child.query_outcome",
    "Verif.Child.pd_query_outcome",
    "Verif.Child.pd_stable",
    "Verif.Child.pd_life_reported_partial",
    "Verif.Child.pd_killed_looks_like_success"
   ],
   "note": "stable; faithful for exit(); death by signal is reported as exit code 0; both kinds of handle, with the exact outcome of every query (query_outcome, pd_query_outcome)"
  },
  {
   "property": "C35",
   "status": "partial",
   "theorems": [
    "Verif.Start.child_descriptors_partial",
    "Verif.Start.child_descriptors_any",
    "Verif.Start.child_descriptors_exact",
    "Verif.Start.child_stray_descriptor",
    "Verif.Start.descriptor_limit_hangs"
   ],
   "note": "exact for a parent with open standard streams and room; with a closed standard stream the child inherits stray copies, and of what is proved exactly; at the limit of open files starting hangs"
  },
  {
   "property": "C36",
   "status": "proved",
   "theorems": [
    "Verif.Location.location_fits",
    "Verif.Location.location_roundtrip",
    "Verif.Location.location_injective",
    "Verif.Location.zero_refused",
    "Verif.Location.missing_refused",
    "Verif.Location.strtoull_reads",
    "Verif.Location.digit_iff",
    "Verif.Location.digits_stop",
    "Verif.Location.no_colon_refused"
   ],
   "note": "snprintf, strtoull and strncmp as the C standard says"
  },
  {
   "property": "C37",
   "status": "proved",
   "theorems": [
    "Verif.Vtable.proxy_calls_export",
    "Verif.Vtable.slots_distinct",
    "Verif.Vtable.slot_zero_is_type",
    "Verif.Vtable.debugCheck_sound",
    "Verif.Vtable.debugCheck_complete",
    "Verif.Vtable.explicit_type_shifts",
    "Verif.Vtable.no_exports_no_type",
    "Verif.Vtable.beyond_exports",
    "Verif.Vtable.order_mismatch_unnoticed"
   ],
   "note": "slot 0 is the type function whenever anything is exported, and numbers agree unless the library exports the type function itself first; the last four show what happens otherwise"
  },
  {
   "property": "C38",
   "status": "proved",
   "theorems": [
    "Verif.Shm.mapShared_trimmed",
    "Verif.Shm.mapShared_page",
    "Verif.Shm.mapShared_unmapped",
    "Verif.Shm.allocRange_trimmed",
    "Verif.Shm.allocRange_deallocRange",
    "Verif.Shm.mapAligned_exact"
   ],
   "note": "for sizes 2^13..2^62 (and one page) and reservations that the system grants; failures are C50"
  },
  {
   "property": "C39",
   "status": "proved",
   "theorems": [
    "Verif.Handle.closed_once",
    "Verif.Handle.closed_not_owned",
    "Verif.Handle.all_closed",
    "Verif.Handle.empty_is_minus_one",
    "Verif.Handle.reset_same_number_twice",
    "Verif.Handle.self_move_closes"
   ],
   "note": "the last two show what happens outside the rule"
  },
  {
   "property": "C40",
   "status": "partial",
   "theorems": [
    "Verif.Socket.receive_one_partial",
    "Verif.Socket.receive_bytes",
    "Verif.Socket.receive_none",
    "Verif.Socket.send_receive",
    "Verif.Socket.receive_invents_nothing",
    "Verif.Socket.receivePlain_table",
    "Verif.Socket.honest_request_balanced",
    "Verif.Socket.oversize_accepted",
    "Verif.Socket.short_message_leaks",
    "Verif.Socket.two_descriptors_leak",
    "Verif.Socket.hostile_exhausts_descriptors"
   ],
   "note": "violated by the code: a short message or one with two descriptors leaks them in the receiver"
  },
  {
   "property": "C41",
   "status": "partial",
   "theorems": [
    "Verif.Seccomp.default_deny",
    "Verif.Seccomp.denied_killed",
    "Verif.Seccomp.emulated_trapped",
    "Verif.Seccomp.self_only",
    "Verif.Seccomp.pid_calls_self_partial",
    "Verif.Seccomp.no_new_process",
    "Verif.Seccomp.paths_mediated_partial",
    "Verif.Seccomp.numbers_right",
    "Verif.Seccomp.debug_sandbox_exact",
    "Verif.Seccomp.rules_agree",
    "Verif.Seccomp.classified",
    "Verif.Seccomp.threads_allowed",
    "Verif.Seccomp.paths_allowed",
    "Verif.Seccomp.addresses_allowed",
    "Verif.Seccomp.uring_allowed",
    "Verif.Seccomp.sysv_allowed",
    "Verif.Seccomp.may_signal_anyone",
    "Verif.Seccomp.debug_sandbox_permits"
   ],
   "note": "default deny, trapping of emulated calls and no new processes hold for every number and argument; violated for execve, execveat, utimensat, io_uring, datagram addresses, System V IPC by number, and seven calls directed at other processes (rt_sigqueueinfo among them)"
  },
  {
   "property": "C42",
   "status": "partial",
   "theorems": [
    "Verif.Syscall.emulate_faithful",
    "Verif.Syscall.arg_abi",
    "Verif.Syscall.openat_absolute",
    "Verif.Syscall.openat_own",
    "Verif.Syscall.cOpen_faithful",
    "Verif.Syscall.cBindOrConnect_faithful",
    "Verif.Syscall.cOpenat_faithful",
    "Verif.Syscall.other_signal",
    "Verif.Syscall.scan_iff",
    "Verif.Syscall.openat_null",
    "Verif.Syscall.openat_unreadable",
    "Verif.Syscall.proc_error_lost",
    "Verif.Syscall.emulate_ends_iff"
   ],
   "note": "every emulated call is answered as the host said; violated in openat for a null path (undefined behaviour) and for a failing dup, whose error is replaced by EPERM"
  },
  {
   "property": "C43",
   "status": "partial",
   "theorems": [
    "Verif.ChildArgs.ptr_passed",
    "Verif.ChildArgs.cstr_passed",
    "Verif.ChildArgs.user_passed",
    "Verif.ChildArgs.heap_as_is",
    "Verif.ChildArgs.out_copied_back",
    "Verif.ChildArgs.in_not_copied_back",
    "Verif.ChildArgs.ptr_frame",
    "Verif.ChildArgs.sockaddr_heap_partial",
    "Verif.ChildArgs.sockaddr_private_refused",
    "Verif.ChildArgs.null_argument_ub",
    "Verif.ChildArgs.getaddrinfo_null_hints",
    "Verif.ChildArgs.getaddrinfo_null_host",
    "Verif.ChildArgs.user_result_lost",
    "Verif.ChildArgs.no_memory_ends_child",
    "Verif.ChildArgs.wrap_ends_iff"
   ],
   "note": "holds for objects, strings and user data; violated for socket addresses outside the heap, absent getaddrinfo arguments and results of user callbacks"
  },
  {
   "property": "C44",
   "status": "partial",
   "theorems": [
    "Verif.Lifetime.never_dead_partial",
    "Verif.Lifetime.destroyed_used",
    "Verif.Lifetime.destroyed_used_race",
    "Verif.Lifetime.waiting_message_used"
   ],
   "note": "violated by the code: destruction does not remove the entry of the service thread, so a waiting request is served with the destroyed object; holds when nothing of the sandbox is waiting or being handled at destruction"
  },
  {
   "property": "C45",
   "status": "proved",
   "theorems": [
    "Verif.FileTree.handles_conserved",
    "Verif.FileTree.lookup_open_handle"
   ],
   "note": ""
  },
  {
   "property": "C46",
   "status": "partial",
   "theorems": [
    "Verif.Child.failed_start_unnoticed",
    "Verif.Child.started_is_addressed_partial",
    "Verif.Family.failed_start_ends_host",
    "Verif.Family.failed_start_kills_all"
   ],
   "note": "violated by the code: the result of vfork is not checked"
  },
  {
   "property": "C47",
   "status": "partial",
   "theorems": [
    "Verif.Start.host_descriptors_kept_partial",
    "Verif.Start.sandbox_leaks_descriptors",
    "Verif.Start.gives_up_iff",
    "Verif.Make.host_kept"
   ],
   "note": "violated by the code: start_child, run in the vfork child, clears the parent's handles, so the host never closes the shared memory and three socket ends"
  },
  {
   "property": "C48",
   "status": "partial",
   "theorems": [
    "Verif.Start.pagemap_readonly_partial",
    "Verif.Start.pagemap_readonly_iff",
    "Verif.Start.pagemap_writable_without_proc",
    "Verif.Start.pagemap_writable_closed_stdin",
    "Verif.Make.pagemap_safe_iff",
    "Verif.Make.daemon_pagemap",
    "Verif.BsdMake.pagemap_writable_iff"
   ],
   "note": "violated by the code when /proc is not usable, or the first sandbox is made by a host with two or more closed standard streams; this condition is proved to be exact for the whole constructor (pagemap_safe_iff). For start_child alone, with any table: when /proc is not usable, or a standard stream is closed and the page map but not the shared memory has a number below 8. On FreeBSD, for every sandbox in every history: exactly if two or three streams were closed when the host made its first (BsdMake.pagemap_writable_iff)"
  },
  {
   "property": "C49",
   "status": "partial",
   "theorems": [
    "Verif.Shm.heapSize_least_partial",
    "Verif.Shm.heapSize_least_iff",
    "Verif.Shm.heapSize_mod",
    "Verif.Shm.heapSize_zero",
    "Verif.Shm.heapSize_wraps"
   ],
   "note": "exact from 1 to 2^33 GiB; zero is an undefined shift and larger numbers wrap silently"
  },
  {
   "property": "C50",
   "status": "partial",
   "theorems": [
    "Verif.Shm.map_failure_unnoticed",
    "Verif.Shm.reservation_failure_unnoticed",
    "Verif.Shm.allocRange_failure_unmaps",
    "Verif.Shm.aligned_failure_unnoticed"
   ],
   "note": "violated by the code: no result of mmap is checked, and a failed allocation in the sandbox unmaps [size, 2 size)"
  },
  {
   "property": "C51",
   "status": "partial",
   "theorems": [
    "Verif.Seccomp.installed_partial",
    "Verif.Seccomp.install_iff",
    "Verif.Seccomp.load_failure_unprotected",
    "Verif.Seccomp.missing_rule_stricter",
    "Verif.Seccomp.rules_kept"
   ],
   "note": "violated by release builds: the result of loading the filter is only looked at by assert; install_iff says exactly when the filter is complete, absent or the process stopped"
  },
  {
   "property": "C52",
   "status": "partial",
   "theorems": [
    "Verif.Syscall.not_emulated_unchanged",
    "Verif.Syscall.not_emulated_succeeds",
    "Verif.Syscall.emulated_are_trapped"
   ],
   "note": "violated by the code: a trapped call without emulation returns its own number, which looks like success"
  },
  {
   "property": "C53",
   "status": "proved",
   "theorems": [
    "Verif.Lifetime.never_other_sandbox",
    "Verif.Lifetime.table_right",
    "Verif.Lifetime.new_entry"
   ],
   "note": "for every interleaving of creations, destructions, requests and descriptor reuse"
  },
  {
   "property": "C54",
   "status": "proved",
   "theorems": [
    "Verif.AddrInfo.gai_query",
    "Verif.AddrInfo.gai_query_changing",
    "Verif.AddrInfo.gai_bad_name_is_null"
   ],
   "note": "gai_query for memory that does not change during the copies, gai_query_changing for any; a malformed name pointer becomes a null name"
  },
  {
   "property": "C55",
   "status": "proved",
   "theorems": [
    "Verif.ChildHeap.heap_truthful",
    "Verif.ChildHeap.proper_not_refused",
    "Verif.ChildHeap.others_proper"
   ],
   "note": "for snmalloc ranges that obey Exact and Marks, and a service that is served atomically"
  },
  {
   "property": "C56",
   "status": "partial",
   "theorems": [
    "Verif.ChildHeap.exhaustion_ends_child",
    "Verif.ChildHeap.failure_never_reported",
    "Verif.ChildHeap.no_record_undefined",
    "Verif.ChildHeap.failure_ends_child",
    "Verif.ChildHeap.success_reported_partial"
   ],
   "note": "violated by the code: an error answer ends the child before the null test, and the slab record is not tested; what remains is that success is reported as such"
  },
  {
   "property": "C57",
   "status": "proved",
   "theorems": [
    "Verif.ChildHeap.Threads.threads_serial",
    "Verif.ChildHeap.Threads.one_inside",
    "Verif.ChildHeap.Threads.threads_progress"
   ],
   "note": "mutual exclusion of FlagLock is part of the model"
  },
  {
   "property": "C58",
   "status": "partial",
   "theorems": [
    "Verif.Main.library_confined_partial",
    "Verif.Main.library_descriptors_exact",
    "Verif.Main.library_finds_pagemap",
    "Verif.Main.calls_after_init"
   ],
   "note": "violated when the host has a closed standard stream (the library can find the page map open for writing) or when libseccomp fails in a release build"
  },
  {
   "property": "C59",
   "status": "proved",
   "theorems": [
    "Verif.Main.own_path",
    "Verif.Main.fdlopen_finds_library"
   ],
   "note": ""
  },
  {
   "property": "C60",
   "status": "partial",
   "theorems": [
    "Verif.Pivot.entry_state",
    "Verif.Pivot.pivot_returns",
    "Verif.Pivot.stack_inside_partial",
    "Verif.Pivot.stack_outside_block",
    "Verif.Pivot.pivot_loses_rbx",
    "Verif.Pivot.portable_runs_iff",
    "Verif.Pivot.portable_unchecked"
   ],
   "note": "violated by the code: main passes the lowest address of the block, so the stack lies wholly below it, and rbx is not given back; the portable version takes the lowest address rightly but looks at no result of the thread library, so a thread that cannot be made is joined through a variable without a value"
  },
  {
   "property": "C61",
   "status": "partial",
   "theorems": [
    "Verif.Init.one_pagemap_partial",
    "Verif.Init.single_iff",
    "Verif.Init.made_exact",
    "Verif.Init.used_before_made",
    "Verif.Init.made_twice"
   ],
   "note": "violated by the code for two concurrent first constructions (both failures proved); holds when the first thread passes before any other begins; single_iff gives the exact condition: at most one thread tests the flag before any sets it, and nobody uses the page map before it is first made"
  },
  {
   "property": "C62",
   "status": "partial",
   "theorems": [
    "Verif.Message.invariant_outcome",
    "Verif.Message.invariant_kept_partial",
    "Verif.Message.throwing_uses",
    "Verif.Message.untested_uses",
    "Verif.Message.escaped_message",
    "Verif.Message.lone_brace_throws"
   ],
   "note": "violated by the code: the macros pass all arguments as one string, so the six messages with two or more placeholders throw format_error; the others end the process"
  },
  {
   "property": "C63",
   "status": "partial",
   "theorems": [
    "Verif.Nest.nested_call_partial",
    "Verif.Nest.nested_call_restores",
    "Verif.Nest.nested_call_not_stuck",
    "Verif.Nest.nested_call_short",
    "Verif.Nest.throwing_leaks"
   ],
   "note": "equivalence with direct calls in both directions for sandboxes that follow the protocol; violated for calls that throw: a frame stays allocated each time"
  },
  {
   "property": "C64",
   "status": "partial",
   "theorems": [
    "Verif.Boot.same_view_partial",
    "Verif.Boot.same_view_iff",
    "Verif.Boot.starts_iff",
    "Verif.Boot.elsewhere_unnoticed"
   ],
   "note": "holds on kernels that honour MAP_FIXED_NOREPLACE; the result of mmap is not compared with the address asked for, so an older kernel can place the heap elsewhere unnoticed"
  },
  {
   "property": "C65",
   "status": "proved",
   "theorems": [
    "Verif.Make.library_exports",
    "Verif.Defaults.defaults_only",
    "Verif.Defaults.defaults_exact",
    "Verif.Defaults.defaults_all_partial",
    "Verif.Defaults.first_default_lost"
   ],
   "note": "library_exports is the property, for the whole constructor of Library, without assumptions about the host. The others are about the constructor of the dispatcher alone, which would lose its first directory if descriptor 0 were free; in a Library it never is, since the shared memory has taken it"
  },
  {
   "property": "C66",
   "status": "proved",
   "theorems": [
    "Verif.EndToEnd.syscall_end_to_end",
    "Verif.EndToEnd.openat_end_to_end",
    "Verif.EndToEnd.no_memory_ends_program",
    "Verif.EndToEnd.trap_ends",
    "Verif.EndToEnd.openat_ends",
    "Verif.Run.path_no_memory"
   ],
   "note": "one thread in the child, nobody else writes the shared memory during the call; relative openat and the socket calls are covered by C14, C42 and C43 separately"
  },
  {
   "property": "C67",
   "status": "proved",
   "theorems": [
    "Verif.EndToEnd.new_sandbox_opens_only_libraries"
   ],
   "note": ""
  },
  {
   "property": "C68",
   "status": "proved",
   "theorems": [
    "Verif.Umtx.umtx_one_success_per_signal",
    "Verif.Umtx.umtx_no_lost_wakeup",
    "Verif.Umtx.umtx_picker_wakes",
    "Verif.Umtx.umtx_alert_succeeds",
    "Verif.Umtx.umtx_second_signal_aborts",
    "Verif.Umtx.umtx_alternating_never_aborts"
   ],
   "note": "the kernel's queue is assumed as described at the top of Umtx/Model.lean"
  },
  {
   "property": "C69",
   "status": "proved",
   "theorems": [
    "Verif.Reap.descriptor_is_safe",
    "Verif.Reap.exit_answer_is_right"
   ],
   "note": "the exit code is that of the status word; that signals look like exit code 0 is C34"
  },
  {
   "property": "C70",
   "status": "partial",
   "theorems": [
    "Verif.Reap.one_thread_is_safe_partial",
    "Verif.Reap.one_thread_learns_partial",
    "Verif.Reap.turns_are_safe_partial",
    "Verif.Reap.turns_learn_partial",
    "Verif.Reap.two_threads_end_the_host",
    "Verif.Reap.two_threads_kill_a_stranger",
    "Verif.Reap.other_thread_takes_the_event",
    "Verif.Reap.any_two_threads_end_the_host",
    "Verif.Reap.any_two_threads_kill_a_stranger",
    "Verif.Reap.any_other_thread_takes_the_event",
    "Verif.Reap.two_waiters_never_both_return",
    "Verif.Reap.two_waiters_end_the_host"
   ],
   "note": "violated by the code for two threads, from every state in which the child runs and two threads are free: with process numbers the host ends or another process is killed, with process descriptors a waiting thread hangs; holds for one thread, and for any number of threads that take turns"
  },
  {
   "property": "C71",
   "status": "partial",
   "theorems": [
    "Verif.Capsicum.execve_ends",
    "Verif.Capsicum.limited_partial",
    "Verif.Capsicum.started_limited_partial",
    "Verif.Capsicum.callback_socket_unlimited",
    "Verif.Capsicum.pagemap_writable_as_output",
    "Verif.BsdMake.bsd_program"
   ],
   "note": "violated by the code: the callback socket keeps every right, and with standard output closed in the host the page map can be written through descriptor 1; the rest is proved for all runs"
  },
  {
   "property": "C72",
   "status": "proved",
   "theorems": [
    "Verif.FreeBsd.trapped_faithful",
    "Verif.FreeBsd.trapped_faithful_old",
    "Verif.FreeBsd.openat_absolute",
    "Verif.FreeBsd.openat_null",
    "Verif.FreeBsd.openat_unreadable",
    "Verif.FreeBsd.min_answer_undefined",
    "Verif.FreeBsd.not_emulated_unchanged",
    "Verif.FreeBsd.never_throws",
    "Verif.FreeBsd.emulate_ends_iff"
   ],
   "note": "without si_syscall, calls made through syscall are not emulated; numbers of sys/syscall.h are trusted"
  },
  {
   "property": "C73",
   "status": "proved",
   "theorems": [
    "Verif.Alloc.array_zeroed",
    "Verif.Alloc.array_none",
    "Verif.Alloc.array_outcome",
    "Verif.Alloc.object_written",
    "Verif.Alloc.object_outcome"
   ],
   "note": "for allocators that give blocks inside the sandbox"
  },
  {
   "property": "C74",
   "status": "proved",
   "theorems": [
    "Verif.Names.exclusive",
    "Verif.Names.anonymous",
    "Verif.Names.others_kept",
    "Verif.Names.no_leak",
    "Verif.Names.search_first",
    "Verif.Names.base_object"
   ],
   "note": "other programs are assumed to remove only names of objects that such programs made"
  },
  {
   "property": "C75",
   "status": "proved",
   "theorems": [
    "Verif.Poll.fair",
    "Verif.Poll.awake",
    "Verif.Poll.truthful",
    "Verif.Poll.end_once"
   ],
   "note": "the order of the kernel's ready queue is assumed as described at the top of Poll/Model.lean"
  },
  {
   "property": "C76",
   "status": "partial",
   "theorems": [
    "Verif.Poll.interrupts_unnoticed_partial",
    "Verif.Poll.interrupt_ends_host",
    "Verif.Poll.kqueue_loop",
    "Verif.Poll.kqueue_iff"
   ],
   "note": "holds with epoll; violated with kqueue, where an interrupted wait ends the host; kqueue_iff says exactly when it makes no difference"
  },
  {
   "property": "C77",
   "status": "proved",
   "theorems": [
    "Verif.Race.history_legal",
    "Verif.Race.map_right",
    "Verif.Race.nothing_lost"
   ],
   "note": "the host gives back only blocks that it has (HostRight); the range allocator is trusted to give out only free chunks"
  },
  {
   "property": "C78",
   "status": "partial",
   "theorems": [
    "Verif.Threads.turns_control_stack_partial",
    "Verif.Threads.turns_own_reply_partial",
    "Verif.Threads.turns_idle_partial",
    "Verif.Threads.turns_no_deadlock_partial",
    "Verif.Threads.callback_between_calls_ends_next_call",
    "Verif.Threads.concurrent_callbacks_cross",
    "Verif.Threads.concurrent_callbacks_abort",
    "Verif.Threads.concurrent_calls_abort",
    "Verif.Threads.concurrent_calls_mix",
    "Verif.Threads.any_two_calls_abort",
    "Verif.Threads.any_two_calls_mix",
    "Verif.Threads.any_late_callback_ends_next_call",
    "Verif.Threads.any_two_callbacks_cross",
    "Verif.Threads.any_two_callbacks_abort"
   ],
   "note": "violated by the code, which has no lock in send or callback (five failures proved, in debug and release builds, from every state between calls, for all threads, calls and answers); holds for any number of threads that take turns"
  },
  {
   "property": "C79",
   "status": "partial",
   "theorems": [
    "Verif.Token.dead_sandbox_releases_host_partial",
    "Verif.Token.dead_loaded_iff",
    "Verif.Token.flag_clear_never_returns",
    "Verif.Token.cleared_flag_hangs",
    "Verif.Token.death_while_loading_hangs"
   ],
   "note": "violated by the code: the flag is_child_loaded is believed on every call, so a sandbox that clears it and exits hangs the caller, as does a library that crashes while it loads; exactly: with the flag set the host is released, with a bound on its steps, unless it is waiting in the loading loop (dead_loaded_iff); with the flag clear no call ever returns or raises (flag_clear_never_returns)"
  },
  {
   "property": "C80",
   "status": "proved",
   "theorems": [
    "Verif.NetEnd.network_ends",
    "Verif.NetEnd.network_call_end_to_end",
    "Verif.NetEnd.bad_network_call_refused",
    "Verif.NetEnd.closed_socket_ends_sandbox",
    "Verif.NetEnd.empty_function_throws",
    "Verif.NetEnd.hostile_network_outcome",
    "Verif.NetEnd.hostile_network_calls",
    "Verif.NetEnd.no_network_by_default",
    "Verif.NetEnd.own_descriptor_without_host",
    "Verif.Run.network_no_memory"
   ],
   "note": "one thread of the child, nobody else writes the shared memory meanwhile; the functions are assumed to return results of system calls"
  },
  {
   "property": "C81",
   "status": "proved",
   "theorems": [
    "Verif.Call.call_uses_its_frame",
    "Verif.Call.call_keeps_host_memory",
    "Verif.Call.call_returns_the_result",
    "Verif.Call.call_effect",
    "Verif.Call.calls_free_their_frames"
   ],
   "note": "snmalloc is trusted to give blocks of the asked size inside the sandbox; what freeing does is not modelled; callbacks answered during the call are part of the sandbox's behaviour"
  },
  {
   "property": "C82",
   "status": "partial",
   "theorems": [
    "Verif.Call.honest_check_partial",
    "Verif.Call.hostile_check_leaves_sandbox",
    "Verif.Call.check_exact",
    "Verif.Call.check_confined_iff"
   ],
   "note": "violated by debug builds: the pointer that the sandbox answers is read and freed unchecked, and a null answer ends the host; check_exact: all that happens, for any sandbox, and check_confined_iff: exactly when the claim holds; holds for an honest sandbox, and release builds do nothing at all"
  },
  {
   "property": "C83",
   "status": "proved",
   "theorems": [
    "Verif.Authority.authority",
    "Verif.Authority.socket_answer",
    "Verif.Authority.socket_denied",
    "Verif.Authority.socket_told",
    "Verif.Authority.told_unique"
   ],
   "note": "messages are handled one at a time; the kernel, the user's functions and allocators are arbitrary within Sane"
  },
  {
   "property": "C84",
   "status": "proved",
   "theorems": [
    "Verif.Authority.isolation"
   ],
   "note": "for range allocators that stay inside their mapping (Contained) and consult only their own chunks (Local); timing and exhaustion of host resources are not modelled"
  },
  {
   "property": "C85",
   "status": "proved",
   "theorems": [
    "Verif.Authority.layout_length",
    "Verif.Authority.stub_reaches_handler",
    "Verif.Authority.user_reached_iff"
   ],
   "note": "layout of std::tuple by libstdc++ on x86-64 is trusted"
  },
  {
   "property": "C86",
   "status": "partial",
   "theorems": [
    "Verif.Balance.message_keeps_descriptors_partial",
    "Verif.Balance.messages_keep_descriptors_partial",
    "Verif.Balance.openat_leaks",
    "Verif.Balance.openat_exhausts",
    "Verif.Balance.decode_request",
    "Verif.Balance.message_leaks_iff",
    "Verif.Balance.messages_leak_exactly",
    "Verif.Balance.user_message_exact",
    "Verif.Balance.user_message_keeps",
    "Verif.Balance.all_messages_leak_exactly",
    "Verif.Balance.thrown_keeps_descriptors",
    "Verif.Balance.every_message_leaks_exactly",
    "Verif.Balance.sandboxes_leak_exactly",
    "Verif.Balance.other_requests_cost_nothing",
    "Verif.Balance.libs_hold_grants"
   ],
   "note": "violated by the code: every successful relative openat leaves a descriptor open in the host, without limit (exactly those: message_leaks_iff, and one for each: messages_leak_exactly); proved for all other requests with at most one descriptor attached; packets with two descriptors or too short are C40; a callback of the user costs the host nothing but what its function returns or keeps (user_message_exact)"
  },
  {
   "property": "C87",
   "status": "proved",
   "theorems": [
    "Verif.Authority.every_message_answered",
    "Verif.Authority.message_ends_iff",
    "Verif.Balance.messages_stop_iff"
   ],
   "note": "every_message_answered: provided that malloc does not fail, the user's functions return and no empty std::function was registered; message_ends_iff, without these conditions: exactly which messages throw, abort or are undefined; messages_stop_iff: a host stops exactly at the first of them; messages are handled one at a time"
  },
  {
   "property": "C88",
   "status": "proved",
   "theorems": [
    "Verif.Token.destroy_ends",
    "Verif.Token.failed_wait",
    "Verif.Token.destroy_in_callback_aborts",
    "Verif.Token.destroy_waits"
   ],
   "note": "for a sandbox that runs the code of the repository; the abort in a loading callback and the wait without limit for code that does not return are proved as negations"
  },
  {
   "property": "C89",
   "status": "proved",
   "theorems": [
    "Verif.UserEnd.user_callback_end_to_end",
    "Verif.UserEnd.bad_user_callback_refused",
    "Verif.UserEnd.told_exact",
    "Verif.UserEnd.closed_descriptor_ends_sandbox",
    "Verif.UserEnd.user_call_ends_iff",
    "Verif.UserEnd.hostile_user_calls",
    "Verif.Run.user_no_memory"
   ],
   "note": "one thread of the child; while it waits only the host's function writes the shared memory; the function is arbitrary but returns"
  },
  {
   "property": "C90",
   "status": "proved",
   "theorems": [
    "Verif.NameEnd.lookup_end_to_end",
    "Verif.NameEnd.failed_lookup",
    "Verif.NameEnd.denied_lookup",
    "Verif.NameEnd.failure_reported_as_success",
    "Verif.NameEnd.hostile_lookup",
    "Verif.NameEnd.lookup_exact",
    "Verif.NameEnd.lookup_ends",
    "Verif.Run.lookup_no_memory"
   ],
   "note": "lookup_exact gives the whole memory afterwards, byte by byte; one thread of the child, no other writer to the shared memory; that a failed lookup with errno 0 is reported as success with an uninitialised result is proved as it is (finding 43)"
  },
  {
   "property": "C91",
   "status": "proved",
   "theorems": [
    "Verif.Rpc.hostile_neighbours"
   ],
   "note": "the range allocator of snmalloc enters through the two specifications Contained and Exact, which the stand-in buddy allocator is proved to meet; operations on the shared state are atomic"
  },
  {
   "property": "C92",
   "status": "partial",
   "theorems": [
    "Verif.RelEnd.relative_openat_partial",
    "Verif.RelEnd.relative_openat_unfaithful",
    "Verif.RelEnd.closed_directory_ends_sandbox",
    "Verif.RelEnd.hostile_relative_openat",
    "Verif.RelEnd.relative_ends",
    "Verif.RelEnd.relative_openat_faithful_iff",
    "Verif.RelEnd.handler_ends_iff",
    "Verif.Run.relative_no_memory"
   ],
   "note": "what the host does is proved in full; that the program gets a descriptor of the file or the kernel's error is false and its negation is proved (findings 4, 39, 41 and 44 of DESIGN.md); one thread of the child"
  },
  {
   "property": "C93",
   "status": "proved",
   "theorems": [
    "Verif.Run.plain_same_iff",
    "Verif.Run.run_transparent",
    "Verif.Run.no_memory_ends_run",
    "Verif.Run.step_alike",
    "Verif.Run.end_transparent",
    "Verif.Run.runs_agree",
    "Verif.Run.meant_unique",
    "Verif.Run.meant_total",
    "Verif.Run.step_total",
    "Verif.Run.step_unique",
    "Verif.Run.step_proper",
    "Verif.Run.steps_unique",
    "Verif.Run.steps_iff_behaves",
    "Verif.Run.proper_run_transparent"
   ],
   "note": "open, stat, access, openat with absolute and relative paths (for the latter with the answer that C92 describes, the number that the file has in the host), bind, connect, registered callbacks, calls that are refused (bad sockets and addresses, callbacks that do not exist) and system calls that are not emulated, and getaddrinfo with names, hints and result that there are (its list, or the bytes left in localRes after a failure, are part of the memory); one thread of the child, no other writer to the shared memory while it waits; the calls are made properly (Behaves: strings, buffers and descriptors that there are); the ideal machine is shown to be deterministic and to go on exactly as long as calls are proper"
  },
  {
   "property": "C94",
   "status": "proved",
   "theorems": [
    "Verif.Whole.library_transparent",
    "Verif.Whole.turn_matches",
    "Verif.Whole.client_ends",
    "Verif.Whole.toEnd_alike",
    "Verif.Whole.call_quiet",
    "Verif.Whole.no_frame_no_call",
    "Verif.Whole.returns_at_end",
    "Verif.Whole.called_unique",
    "Verif.Whole.calls_unique",
    "Verif.Whole.called_iff_willing",
    "Verif.Whole.calls_iff_able",
    "Verif.Whole.proper_library_transparent"
   ],
   "note": "composes C81 and C93; one thread in each process and nobody else writes the shared memory; the functions return and their calls are made properly, which are conditions on the run with the library linked in; neither program looks at heap memory that it has not been given; host functions that run as callbacks do not call the library again"
  },
  {
   "property": "C95",
   "status": "proved",
   "theorems": [
    "Verif.Whole.Hostile.influence_through_results",
    "Verif.Whole.Hostile.same_results_same_program",
    "Verif.Whole.Hostile.own_memory_is_own",
    "Verif.Whole.Hostile.call_fits"
   ],
   "note": "the hostile process can write to nothing of the host but the shared heap (the kernel's part); snmalloc is trusted to give blocks of the heap; callbacks, which are functions of the host, are part of the sandbox's behaviour here; timing is not modelled"
  },
  {
   "property": "C96",
   "status": "partial",
   "theorems": [
    "Verif.Seccomp.substitutes_refused_partial",
    "Verif.Seccomp.conditional_refused",
    "Verif.Seccomp.originals_refused",
    "Verif.Seccomp.substitutes_numbered",
    "Verif.Seccomp.loopholes_open",
    "Verif.Seccomp.loopholes_are",
    "Verif.Seccomp.substitute_refused_iff"
   ],
   "note": "proved for all substitutes but those in loopholes, which are proved to be executed: clock_settime, clock_adjtime, utimensat, rt_sigqueueinfo, rt_tgsigqueueinfo, sched_setattr, sendto, sendmsg, sendmmsg, fcntl (F_SETOWN_EX) and io_uring_enter (finding 45); the table of substitutes is drawn up from the manual"
  },
  {
   "property": "C97",
   "status": "partial",
   "theorems": [
    "Verif.Reach.held_granted_partial",
    "Verif.Reach.held_granted_without_uring",
    "Verif.Reach.uring_reaches_anything"
   ],
   "note": "false because the filter allows io_uring, by which the process has the kernel open what it names (proved); everything else is proved; which calls give descriptors is taken from the manual; what the runner opens between exec and the installation of the filter is not counted"
  },
  {
   "property": "C98",
   "status": "proved",
   "theorems": [
    "Verif.BsdPath.bsd_confined",
    "Verif.BsdPath.bsd_served",
    "Verif.BsdPath.wantedOp_permitted",
    "Verif.BsdPath.refused_as_on_linux",
    "Verif.BsdPath.bsd_openat_own",
    "Verif.BsdPath.bsd_no_memory",
    "Verif.BsdPath.bsd_openat_no_memory",
    "Verif.BsdPath.bsd_ends_iff"
   ],
   "note": "that the kernel honours O_RESOLVE_BENEATH and AT_RESOLVE_BENEATH is trusted; flag values from FreeBSD's fcntl.h"
  },
  {
   "property": "C99",
   "status": "partial",
   "theorems": [
    "Verif.BsdPath.stat_writes_partial",
    "Verif.BsdPath.stat_effect",
    "Verif.BsdPath.stat_overruns",
    "Verif.BsdPath.stat_misread",
    "Verif.BsdPath.stat_ends"
   ],
   "note": "false: the trapped call is freebsd11_stat with a structure of 120 bytes, the emulation writes a struct stat of 224 bytes with other offsets (proved); what holds is that nothing outside the 224 bytes changes; both layouts are from FreeBSD's sys/stat.h for amd64"
  }
 ]
}