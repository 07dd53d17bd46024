import Verif.Bounds.Props
import Verif.Strings.Props
import Verif.Path.Props
import Verif.Path.Cwd
import Verif.FileTree.Props
import Verif.Callback.Props
import Verif.PathSyscall.Props
import Verif.Net.Props
import Verif.AddrInfo.Props
import Verif.Rpc.Props
import Verif.Rpc.Victim
import Verif.Teardown.Props
import Verif.Token.Crash
import Verif.Sem.Props
import Verif.Child.Props
import Verif.Start.HostProps
import Verif.Handle.Props
import Verif.Socket.Props
import Verif.Location.Props
import Verif.Vtable.Props
import Verif.Shm.Props
import Verif.Seccomp.Props
import Verif.Syscall.Props
import Verif.ChildArgs.Props
import Verif.Lifetime.Props
import Verif.ChildHeap.Props
import Verif.ChildHeap.ThreadProps
import Verif.Main.Props
import Verif.Pivot.Props
import Verif.Init.Props
import Verif.Message.Props
import Verif.Nest.Props
import Verif.Boot.Props
import Verif.Defaults.Props
import Verif.EndToEnd.Props
import Verif.Umtx.Props
import Verif.Reap.Props
import Verif.Capsicum.Model
import Verif.Capsicum.Props
import Verif.FreeBsd.Model
import Verif.FreeBsd.Spec
import Verif.FreeBsd.Props
import Verif.Alloc.Model
import Verif.Alloc.Props
import Verif.Names.Model
import Verif.Names.Props
import Verif.Poll.Model
import Verif.Poll.Props
import Verif.Race.Model
import Verif.Race.Props
import Verif.Threads.Model
import Verif.Threads.Spec
import Verif.Threads.Lemmas
import Verif.Threads.Props
import Verif.Threads.Always
import Verif.Token.Hang
import Verif.Token.Destroy
import Verif.NetEnd.Model
import Verif.NetEnd.Spec
import Verif.NetEnd.Lemmas
import Verif.NetEnd.Props
import Verif.Call.Props
import Verif.Call.Check
import Verif.Authority.Model
import Verif.Authority.Spec
import Verif.Authority.Props
import Verif.Authority.Isolation
import Verif.Authority.Frames
import Verif.Balance.Props
import Verif.Authority.Answer
import Verif.UserEnd.Props
import Verif.NameEnd.Props
import Verif.NameEnd.ExactProps
import Verif.RelEnd.Props
import Verif.Run.Props
import Verif.Run.TotalProps
import Verif.Whole.Model
import Verif.Whole.Spec
import Verif.Whole.Props
import Verif.Whole.Hostile
import Verif.Whole.HostileProps
import Verif.Seccomp.SameProps
import Verif.Reach.Props
import Verif.BsdPath.Props
import Verif.Throw.Props
import Verif.Records.Props
import Verif.OpenMode.Props
import Verif.RefArgs.Props
import Verif.Timed.Props
import Verif.Timed.Exact
import Verif.Hb.Props
import Verif.Signals.BreakProps
import Verif.SigMem.Props
import Verif.Resize.Props
import Verif.Token.Later
import Verif.Make.Props
import Verif.Nest.Short
import Verif.Cycle.First
import Verif.BsdMake.Props
import Verif.BsdMake.Child
import Verif.BsdMake.ChildProps
import Verif.Run.NoMemory
import Verif.Authority.Ends
import Verif.Balance.Ends
import Verif.Balance.Leaks
import Verif.Balance.UserProps
import Verif.Balance.Thrown
import Verif.Syscall.Ends
import Verif.FreeBsd.Ends
import Verif.EndToEnd.Ends
import Verif.RelEnd.Ends
import Verif.NetEnd.Ends
import Verif.NameEnd.Ends
import Verif.PathSyscall.Ends
import Verif.Reap.Serial
import Verif.Reap.Always
import Verif.Run.Ends
import Verif.Signals.Closing
import Verif.Signals.Release
import Verif.Signals.Exact
import Verif.Token.Hostile
import Verif.Pool.Props
import Verif.Family.Props
import Verif.Child.Pd
import Verif.BsdEnd.Props
import Verif.BsdNet.Model
import Verif.BsdNet.Spec
import Verif.BsdNet.Lemmas
import Verif.BsdNet.Props
import Verif.BsdNet.Ends
import Verif.BsdRel.Model
import Verif.BsdRel.Spec
import Verif.BsdRel.Lemmas
import Verif.BsdRel.Props
import Verif.BsdRel.Ends
import Verif.BsdFamily.Props
import Verif.BsdName.Props
import Verif.BsdName.Ends
import Verif.BsdName.ExactProps
import Verif.BsdRun.Props
import Verif.BsdRun.TotalProps
import Verif.BsdEnd.Ends
import Verif.BsdRun.Ends
import Verif.BsdAuthority.Props
import Verif.BsdAuthority.Answers
import Verif.BsdBalance.Props
import Verif.BsdBalance.UserProps
import Verif.BsdBalance.Thrown
import Verif.Whole.TotalProps
import Verif.BsdWhole.Props
import Verif.BsdWhole.TotalProps
import Verif.Balance.Several
import Verif.BsdBalance.Several
import Verif.Authority.Sockets
import Verif.Authority.SocketsExact
import Verif.BsdAuthority.AnswersExact
import Verif.Authority.PathsExact
import Verif.BsdAuthority.PathsExact
import Verif.Authority.LookupExact
import Verif.BsdAuthority.LookupExact
import Verif.Authority.UsersExact
import Verif.BsdAuthority.UsersExact
import Verif.Authority.Memoryless
import Verif.BsdAuthority.Memoryless

/-!
# Axioms of the property theorems

One line for every theorem named in `MANIFEST.json`.  The build prints the axioms; at most `propext`,
`Classical.choice` and `Quot.sound` appear.
-/

/-! ## C01 -/

#print axioms Verif.Bounds.contains_iff
#print axioms Verif.Bounds.contains_iff_bytes
#print axioms Verif.Bounds.contains_no_wrap
#print axioms Verif.Bounds.contains_sub
#print axioms Verif.Bounds.contains_excludes_heap_start
#print axioms Verif.Bounds.domesticate_spec
#print axioms Verif.Bounds.ofMapping_wf
#print axioms Verif.Bounds.ofMapping_exact

/-! ## C02 -/

#print axioms Verif.Callback.invoke_refuses
#print axioms Verif.Callback.invoke_copies

/-! ## C03 -/

#print axioms Verif.Strings.strdupOut_reads_inside
#print axioms Verif.Strings.strdupOut_safe
#print axioms Verif.Strings.strdupOut_null_iff
#print axioms Verif.Strings.strdupOut_faithful
#print axioms Verif.Strings.strdupOut_bytes
#print axioms Verif.Strings.strdupOut_malloc_failure_ub
#print axioms Verif.Strings.strdupOut_outcome
#print axioms Verif.Strings.strdupOut_block_iff

/-! ## C04 -/

#print axioms Verif.Strings.strdup_text_partial
#print axioms Verif.Strings.strdup_asks
#print axioms Verif.Strings.strdup_frame
#print axioms Verif.Strings.strdup_roundtrip_iff
#print axioms Verif.Strings.strdup_unterminated

/-! ## C05 -/

#print axioms Verif.Bounds.allocInSandbox_exact
#print axioms Verif.Bounds.allocInSandbox_room

/-! ## C06 -/

#print axioms Verif.Path.str_parse
#print axioms Verif.Path.parse_no_slash
#print axioms Verif.Path.parse_isAbsolute
#print axioms Verif.Path.parse_str
#print axioms Verif.Path.ofView_ok
#print axioms Verif.Path.ofView_empty_ub

/-! ## C07 -/

#print axioms Verif.Path.canonicalise_shape
#print axioms Verif.Path.canonicalise_idem
#print axioms Verif.Path.canonicalise_sublist
#print axioms Verif.Path.canonicalise_failure_shape

/-! ## C08 -/

#print axioms Verif.Path.canonicalise_eq_resolve
#print axioms Verif.Path.canonicalise_succeeds_iff
#print axioms Verif.Path.makeAbsolute_canonicalise
#print axioms Verif.Path.makeAbsolute_absolute

/-! ## C09 -/

#print axioms Verif.Path.canonicalise_walk_partial
#print axioms Verif.Path.canonicalise_walk_iff
#print axioms Verif.Path.canonicalise_dot_disagrees

/-! ## C10 -/

#print axioms Verif.FileTree.lookup_refines
#print axioms Verif.FileTree.lookup_none_iff
#print axioms Verif.FileTree.exports_disjoint
#print axioms Verif.FileTree.namesOf_absText
#print axioms Verif.FileTree.export_lookup_text
#print axioms Verif.FileTree.unreachable_export
#print axioms Verif.FileTree.malformed_texts
#print axioms Verif.FileTree.empty_text_throws

/-! ## C100 -/

#print axioms Verif.Throw.throw_control_stack_partial
#print axioms Verif.Throw.throw_no_deadlock
#print axioms Verif.Throw.throw_calls_terminate
#print axioms Verif.Throw.throw_own_reply
#print axioms Verif.Throw.throw_idle
#print axioms Verif.Throw.throw_depth
#print axioms Verif.Throw.abandoned_never_return
#print axioms Verif.Throw.caught_answer_misdelivered
#print axioms Verif.Throw.caught_exception_hangs
#print axioms Verif.Throw.load_throw_hangs

/-! ## C101 -/

#print axioms Verif.Records.records_distinct_partial
#print axioms Verif.Records.stale_only_while_freeing
#print axioms Verif.Records.records_none_lost
#print axioms Verif.Records.one_thread_serial
#print axioms Verif.Records.records_distinct_one_thread
#print axioms Verif.Records.shared_record
#print axioms Verif.Records.shared_later
#print axioms Verif.Records.stale_reachable

/-! ## C102 -/

#print axioms Verif.OpenMode.admits_iff
#print axioms Verif.OpenMode.open_as_native_partial
#print axioms Verif.OpenMode.open_refused
#print axioms Verif.OpenMode.trapped_mode
#print axioms Verif.OpenMode.c_open_mode_partial
#print axioms Verif.OpenMode.tmpfile_mode_lost
#print axioms Verif.OpenMode.c_openat_mode_partial
#print axioms Verif.OpenMode.c_open_leftover
#print axioms Verif.OpenMode.c_openat_leftover
#print axioms Verif.OpenMode.own_open_admitted

/-! ## C103 -/

#print axioms Verif.Alloc.count_respected_partial
#print axioms Verif.Alloc.count_ignored
#print axioms Verif.Alloc.neighbour_hit

/-! ## C104 -/

#print axioms Verif.RefArgs.references_read_partial
#print axioms Verif.RefArgs.references_iff
#print axioms Verif.RefArgs.reference_lost
#print axioms Verif.RefArgs.alias_lost

/-! ## C105 -/

#print axioms Verif.Timed.umtx_exact
#print axioms Verif.Timed.umtx_told
#print axioms Verif.Timed.futex_exact
#print axioms Verif.Timed.futex_ends
#print axioms Verif.Timed.futex_never
#print axioms Verif.Timed.futex_told_partial
#print axioms Verif.Timed.death_unnoticed
#print axioms Verif.Timed.futex_wait_iff
#print axioms Verif.Timed.caller_told_iff
#print axioms Verif.Timed.ended_told_iff

/-! ## C106 -/

#print axioms Verif.Hb.control_synchronises
#print axioms Verif.Hb.marks_are_events
#print axioms Verif.Hb.release_needed

/-! ## C107 -/

#print axioms Verif.Signals.handlers_safe_calm_partial
#print axioms Verif.Signals.calls_wait
#print axioms Verif.Signals.only_calm
#print axioms Verif.Signals.handlers_safe_partial
#print axioms Verif.Signals.handlers_safe_leaving_partial
#print axioms Verif.Signals.waiting_aborts_host
#print axioms Verif.Signals.reply_swapped
#print axioms Verif.Signals.begins_in_handler
#print axioms Verif.Signals.reporting_aborts_debug
#print axioms Verif.Signals.loading_broken
#print axioms Verif.Signals.loaded_aborts_debug
#print axioms Verif.Signals.destroying_aborts_sandbox
#print axioms Verif.Signals.leaving_aborts_sandbox
#print axioms Verif.Signals.only_quiet
#print axioms Verif.Signals.signal_anywhere

/-! ## C108 -/

#print axioms Verif.SigMem.requests_survive_partial
#print axioms Verif.SigMem.can_request_iff
#print axioms Verif.SigMem.nested_request_hangs
#print axioms Verif.SigMem.interrupted_read_ends

/-! ## C109 -/

#print axioms Verif.Resize.shared_size_kept_partial
#print axioms Verif.Resize.size_changes_iff
#print axioms Verif.Resize.uring_truncates
#print axioms Verif.Resize.closed_stream_truncates

/-! ## C11 -/

#print axioms Verif.FileTree.lookup_authority

/-! ## C110 -/

#print axioms Verif.Token.raises_iff_partial
#print axioms Verif.Token.later_call
#print axioms Verif.Token.returns_iff
#print axioms Verif.Token.next_call_ends_host
#print axioms Verif.Token.crash_makes_call_return

/-! ## C111 -/

#print axioms Verif.Make.reported_iff_partial
#print axioms Verif.Make.ends_exactly
#print axioms Verif.Make.shortage_ends_host
#print axioms Verif.Make.refusal_not_reported
#print axioms Verif.BsdMake.bsd_ends_exactly
#print axioms Verif.BsdMake.bsd_shortage

/-! ## C112 -/

#print axioms Verif.Make.child_table
#print axioms Verif.Make.child_table_open_partial
#print axioms Verif.Make.closed_stream_filled
#print axioms Verif.Make.daemon_pagemap
#print axioms Verif.BsdMake.bsd_program

/-! ## C113 -/

#print axioms Verif.Cycle.fresh_makes_partial
#print axioms Verif.Cycle.sandbox_costs
#print axioms Verif.Cycle.sandbox_costs_four
#print axioms Verif.Cycle.cycles_bounded
#print axioms Verif.Cycle.steady_cycle
#print axioms Verif.Cycle.steady_count
#print axioms Verif.Cycle.steady_soon
#print axioms Verif.Cycle.fresh_count
#print axioms Verif.Cycle.usual_limit

/-! ## C114 -/

#print axioms Verif.BsdMake.accounted
#print axioms Verif.BsdMake.eof_iff
#print axioms Verif.BsdMake.in_use
#print axioms Verif.BsdMake.all_returned
#print axioms Verif.BsdMake.drains
#print axioms Verif.BsdMake.cycles_unlimited

/-! ## C115 -/

#print axioms Verif.BsdMake.no_strays_partial
#print axioms Verif.BsdMake.process_survives
#print axioms Verif.Seccomp.no_new_process

/-! ## C116 -/

#print axioms Verif.BsdMake.isolated_partial
#print axioms Verif.BsdMake.isolated_iff
#print axioms Verif.BsdMake.neighbour_memory
#print axioms Verif.BsdMake.bsd_program
#print axioms Verif.BsdMake.pagemap_writable_iff
#print axioms Verif.Make.child_objects
#print axioms Verif.Make.neighbour_memory

/-! ## C117 -/

#print axioms Verif.Run.step_ends
#print axioms Verif.Run.user_ends
#print axioms Verif.Run.careful_goes_on

/-! ## C118 -/

#print axioms Verif.Path.here_same_file_partial
#print axioms Verif.Path.here_text
#print axioms Verif.Path.here_unreachable
#print axioms Verif.Path.here_ends_iff

/-! ## C119 -/

#print axioms Verif.Pool.own_allocator_partial
#print axioms Verif.Pool.allocator_in_chunk_partial
#print axioms Verif.Pool.shared_allocator
#print axioms Verif.Pool.chunk_lost
#print axioms Verif.Pool.one_thread_owns

/-! ## C12 -/

#print axioms Verif.FileTree.refused_iff
#print axioms Verif.FileTree.added_reachable

/-! ## C120 -/

#print axioms Verif.Family.own_child_partial
#print axioms Verif.Family.query_truth_partial
#print axioms Verif.Family.failed_start_ends_host
#print axioms Verif.Family.failed_start_alone
#print axioms Verif.Family.failed_start_kills_all
#print axioms Verif.Family.reaped_ends_host

/-! ## C121 -/

#print axioms Verif.BsdEnd.bsd_end_to_end_partial
#print axioms Verif.BsdEnd.bsd_end_to_end_old_partial
#print axioms Verif.BsdEnd.bsd_openat_end_to_end
#print axioms Verif.BsdEnd.access_of_a_file_fails
#print axioms Verif.BsdEnd.bsd_trap_ends
#print axioms Verif.BsdEnd.bsd_openat_ends
#print axioms Verif.BsdPath.stat_overruns
#print axioms Verif.BsdPath.stat_misread

/-! ## C122 -/

#print axioms Verif.BsdEnd.bsd_new_sandbox_opens_only_libraries
#print axioms Verif.BsdEnd.bsd_new_sandbox_openat_only_libraries

/-! ## C123 -/

#print axioms Verif.BsdNet.bsd_network_ends
#print axioms Verif.BsdNet.bsd_network_call_end_to_end
#print axioms Verif.BsdNet.bsd_bad_network_call_refused
#print axioms Verif.BsdNet.bsd_closed_socket_ends_sandbox
#print axioms Verif.BsdNet.bsd_empty_function_throws
#print axioms Verif.BsdNet.bsd_hostile_network_outcome
#print axioms Verif.BsdNet.bsd_hostile_network_calls
#print axioms Verif.BsdNet.bsd_no_network_by_default

/-! ## C124 -/

#print axioms Verif.BsdRel.bsd_relative_openat_partial
#print axioms Verif.BsdRel.bsd_relative_openat_unfaithful
#print axioms Verif.BsdRel.bsd_closed_directory_ends_sandbox
#print axioms Verif.BsdRel.bsd_hostile_relative_openat
#print axioms Verif.BsdRel.bsd_relative_ends
#print axioms Verif.BsdRel.bsd_relative_openat_faithful_iff
#print axioms Verif.BsdRel.bsd_handler_ends_iff

/-! ## C125 -/

#print axioms Verif.BsdFamily.bsd_own_child_partial
#print axioms Verif.BsdFamily.bsd_query_truth_partial
#print axioms Verif.BsdFamily.bsd_terminate_partial
#print axioms Verif.BsdFamily.bsd_destroy_partial
#print axioms Verif.BsdFamily.bsd_host_ends_partial
#print axioms Verif.BsdFamily.failed_pdfork_ends_host
#print axioms Verif.BsdFamily.failed_pdfork_takes_other
#print axioms Verif.BsdFamily.failed_pdfork_hides_end
#print axioms Verif.BsdFamily.closed_process_lost
#print axioms Verif.BsdFamily.closed_queue_ends_host

/-! ## C126 -/

#print axioms Verif.BsdName.bsd_lookup_partial
#print axioms Verif.BsdName.bsd_failed_lookup
#print axioms Verif.BsdName.bsd_denied_lookup
#print axioms Verif.BsdName.bsd_error_told
#print axioms Verif.BsdName.bsd_negative_told_success
#print axioms Verif.BsdName.bsd_canon_leak
#print axioms Verif.BsdName.bsd_hostile_lookup
#print axioms Verif.BsdName.bsd_refused
#print axioms Verif.BsdName.bsd_own_answer
#print axioms Verif.BsdName.bsd_freed_iff
#print axioms Verif.BsdName.bsd_lookup_ends
#print axioms Verif.BsdName.bsd_lookup_exact

/-! ## C127 -/

#print axioms Verif.BsdRun.run_transparent
#print axioms Verif.BsdRun.step_alike
#print axioms Verif.BsdRun.end_transparent
#print axioms Verif.BsdRun.runs_agree
#print axioms Verif.BsdRun.meant_unique
#print axioms Verif.BsdRun.plain_same_iff
#print axioms Verif.BsdRun.meant_total
#print axioms Verif.BsdRun.step_total
#print axioms Verif.BsdRun.step_unique
#print axioms Verif.BsdRun.step_proper
#print axioms Verif.BsdRun.steps_unique
#print axioms Verif.BsdRun.steps_iff_behaves
#print axioms Verif.BsdRun.proper_run_transparent

/-! ## C128 -/

#print axioms Verif.BsdRun.step_ends
#print axioms Verif.BsdRun.step_unreadable
#print axioms Verif.BsdRun.careful_goes_on
#print axioms Verif.BsdRun.too_few_blocks
#print axioms Verif.BsdRun.user_ends

/-! ## C129 -/

#print axioms Verif.BsdAuthority.bsd_authority
#print axioms Verif.BsdAuthority.bsd_isolation
#print axioms Verif.BsdAuthority.bsd_every_message_answered
#print axioms Verif.BsdAuthority.bsd_idle
#print axioms Verif.BsdAuthority.bsd_socket_answer
#print axioms Verif.BsdAuthority.bsd_socket_denied
#print axioms Verif.BsdAuthority.bsd_socket_told
#print axioms Verif.BsdAuthority.told_unique

/-! ## C13 -/

#print axioms Verif.FileTree.dir_permanent_partial
#print axioms Verif.FileTree.dir_permanent_iff
#print axioms Verif.FileTree.dir_handle_replaced

/-! ## C130 -/

#print axioms Verif.BsdBalance.bsd_message_leaks_iff
#print axioms Verif.BsdBalance.bsd_messages_leak_exactly
#print axioms Verif.BsdBalance.bsd_messages_keep_descriptors_partial
#print axioms Verif.BsdBalance.bsd_openat_leaks
#print axioms Verif.BsdBalance.bsd_openat_exhausts
#print axioms Verif.BsdBalance.bsd_exhausted_loses
#print axioms Verif.BsdBalance.bsd_user_message_exact
#print axioms Verif.BsdBalance.bsd_user_message_keeps
#print axioms Verif.BsdBalance.bsd_all_messages_leak_exactly
#print axioms Verif.BsdBalance.bsd_thrown_keeps_descriptors
#print axioms Verif.BsdBalance.bsd_every_message_leaks_exactly
#print axioms Verif.BsdBalance.bsd_sandboxes_leak_exactly
#print axioms Verif.BsdBalance.bsd_other_requests_cost_nothing
#print axioms Verif.BsdBalance.bsd_libs_hold_grants

/-! ## C131 -/

#print axioms Verif.BsdWhole.bsd_library_transparent
#print axioms Verif.BsdWhole.turn_matches
#print axioms Verif.BsdWhole.bsd_client_ends
#print axioms Verif.BsdWhole.toEnd_alike
#print axioms Verif.BsdWhole.bsd_no_frame_no_call
#print axioms Verif.BsdWhole.bsd_returns_at_end
#print axioms Verif.BsdWhole.bsd_called_unique
#print axioms Verif.BsdWhole.bsd_calls_unique
#print axioms Verif.BsdWhole.bsd_called_iff_willing
#print axioms Verif.BsdWhole.bsd_calls_iff_able
#print axioms Verif.BsdWhole.bsd_proper_library_transparent

/-! ## C132 -/

#print axioms Verif.Authority.path_told
#print axioms Verif.Authority.openat_told
#print axioms Verif.Authority.socket_told
#print axioms Verif.Authority.lookup_told
#print axioms Verif.Authority.lookupTold_unique
#print axioms Verif.Authority.user_told
#print axioms Verif.Authority.userTold_unique
#print axioms Verif.Authority.builtin_reply
#print axioms Verif.Authority.pathTold_unique
#print axioms Verif.Authority.relTold_unique
#print axioms Verif.Authority.told_unique
#print axioms Verif.BsdAuthority.bsd_socket_told
#print axioms Verif.BsdAuthority.told_unique
#print axioms Verif.BsdAuthority.bsd_path_told
#print axioms Verif.BsdAuthority.bsd_openat_told
#print axioms Verif.BsdAuthority.bsd_lookup_told
#print axioms Verif.BsdAuthority.lookupTold_unique
#print axioms Verif.BsdAuthority.bsd_user_told
#print axioms Verif.BsdAuthority.userTold_unique
#print axioms Verif.BsdAuthority.pathTold_unique
#print axioms Verif.BsdAuthority.relTold_unique

/-! ## C133 -/

#print axioms Verif.Authority.same_grants_same_treatment
#print axioms Verif.Authority.messages_leave_no_trace
#print axioms Verif.BsdAuthority.bsd_same_grants_same_treatment
#print axioms Verif.BsdAuthority.bsd_messages_leave_no_trace

/-! ## C14 -/

#print axioms Verif.PathSyscall.serve_confined
#print axioms Verif.PathSyscall.open_served
#print axioms Verif.PathSyscall.openat_own_descriptor
#print axioms Verif.PathSyscall.serve_total

/-! ## C15 -/

#print axioms Verif.PathSyscall.serve_refused
#print axioms Verif.PathSyscall.serve_total
#print axioms Verif.PathSyscall.openat_result
#print axioms Verif.PathSyscall.access_file_fails
#print axioms Verif.PathSyscall.serve_ends_iff
#print axioms Verif.PathSyscall.bad_path_refused

/-! ## C16 -/

#print axioms Verif.Callback.construct_table
#print axioms Verif.Callback.register_fresh
#print axioms Verif.Callback.register_overflow
#print axioms Verif.Callback.register_preserves

/-! ## C17 -/

#print axioms Verif.Callback.handle_answers
#print axioms Verif.Callback.default_entry_refused
#print axioms Verif.Callback.answered_counts
#print axioms Verif.Callback.handler_throws_unanswered

/-! ## C18 -/

#print axioms Verif.Net.sock_refused
#print axioms Verif.Net.sock_mediated
#print axioms Verif.Net.sock_calls

/-! ## C19 -/

#print axioms Verif.Net.invoke_default_deny
#print axioms Verif.Net.invoke_last

/-! ## C20 -/

#print axioms Verif.AddrInfo.gai_stores_inside
#print axioms Verif.AddrInfo.gai_refused
#print axioms Verif.AddrInfo.gai_alloc_failure
#print axioms Verif.AddrInfo.gai_empty_list

/-! ## C21 -/

#print axioms Verif.AddrInfo.gai_list_partial
#print axioms Verif.AddrInfo.gai_canon_leak
#print axioms Verif.AddrInfo.gai_canon_copied
#print axioms Verif.AddrInfo.gai_transient_leak
#print axioms Verif.AddrInfo.gai_error_mangled

/-! ## C22 -/

#print axioms Verif.Rpc.alloc_decided
#print axioms Verif.Rpc.alloc_claims

/-! ## C23 -/

#print axioms Verif.Rpc.dealloc_decided
#print axioms Verif.Rpc.dealloc_clears
#print axioms Verif.Rpc.release_once

/-! ## C24 -/

#print axioms Verif.Rpc.request_confined
#print axioms Verif.Rpc.others_unchanged
#print axioms Verif.Rpc.owned_was_granted

/-! ## C25 -/

#print axioms Verif.Rpc.never_twice_partial
#print axioms Verif.Rpc.handed_out_twice

/-! ## C26 -/

#print axioms Verif.Rpc.one_answer_partial
#print axioms Verif.Rpc.answers_sequential
#print axioms Verif.Rpc.served_for_owner
#print axioms Verif.Rpc.unknown_kind_accepted

/-! ## C27 -/

#print axioms Verif.Teardown.destroy_clears
#print axioms Verif.Teardown.destroy_others

/-! ## C28 -/

#print axioms Verif.Teardown.destroy_only_live
#print axioms Verif.Teardown.records_conserved
#print axioms Verif.Teardown.delete_count_partial
#print axioms Verif.Teardown.deleted_twice

/-! ## C29 -/

#print axioms Verif.Token.control_stack
#print axioms Verif.Token.token_unique
#print axioms Verif.Token.one_side_runs
#print axioms Verif.Token.depth_restored
#print axioms Verif.Token.idle_between_calls
#print axioms Verif.Token.no_deadlock
#print axioms Verif.Token.calls_terminate
#print axioms Verif.Token.loading_call_deadlocks

/-! ## C30 -/

#print axioms Verif.Token.own_reply
#print axioms Verif.Token.requests_distinct

/-! ## C31 -/

#print axioms Verif.Token.crash_reported_partial
#print axioms Verif.Token.crash_bounded_partial
#print axioms Verif.Token.later_call_aborts
#print axioms Verif.Token.loading_crash_hangs

/-! ## C32 -/

#print axioms Verif.Token.host_nesting_partial
#print axioms Verif.Token.abort_cause
#print axioms Verif.Token.one_write_aborts
#print axioms Verif.Token.hostile_aborts_host

/-! ## C33 -/

#print axioms Verif.Sem.one_success_per_signal
#print axioms Verif.Sem.no_lost_wakeup
#print axioms Verif.Sem.active_succeeds
#print axioms Verif.Sem.second_signal_aborts
#print axioms Verif.Sem.alternating_never_aborts

/-! ## C34 -/

#print axioms Verif.Child.exit_status_stable
#print axioms Verif.Child.exit_code_faithful_partial
#print axioms Verif.Child.running_reported
#print axioms Verif.Child.life_reported_partial
#print axioms Verif.Child.killed_looks_like_success
#print axioms Verif.Child.query_outcome
#print axioms Verif.Child.pd_query_outcome
#print axioms Verif.Child.pd_stable
#print axioms Verif.Child.pd_life_reported_partial
#print axioms Verif.Child.pd_killed_looks_like_success

/-! ## C35 -/

#print axioms Verif.Start.child_descriptors_partial
#print axioms Verif.Start.child_descriptors_any
#print axioms Verif.Start.child_descriptors_exact
#print axioms Verif.Start.child_stray_descriptor
#print axioms Verif.Start.descriptor_limit_hangs

/-! ## C36 -/

#print axioms Verif.Location.location_fits
#print axioms Verif.Location.location_roundtrip
#print axioms Verif.Location.location_injective
#print axioms Verif.Location.zero_refused
#print axioms Verif.Location.missing_refused
#print axioms Verif.Location.strtoull_reads
#print axioms Verif.Location.digit_iff
#print axioms Verif.Location.digits_stop
#print axioms Verif.Location.no_colon_refused

/-! ## C37 -/

#print axioms Verif.Vtable.proxy_calls_export
#print axioms Verif.Vtable.slots_distinct
#print axioms Verif.Vtable.slot_zero_is_type
#print axioms Verif.Vtable.debugCheck_sound
#print axioms Verif.Vtable.debugCheck_complete
#print axioms Verif.Vtable.explicit_type_shifts
#print axioms Verif.Vtable.no_exports_no_type
#print axioms Verif.Vtable.beyond_exports
#print axioms Verif.Vtable.order_mismatch_unnoticed

/-! ## C38 -/

#print axioms Verif.Shm.mapShared_trimmed
#print axioms Verif.Shm.mapShared_page
#print axioms Verif.Shm.mapShared_unmapped
#print axioms Verif.Shm.allocRange_trimmed
#print axioms Verif.Shm.allocRange_deallocRange
#print axioms Verif.Shm.mapAligned_exact

/-! ## C39 -/

#print axioms Verif.Handle.closed_once
#print axioms Verif.Handle.closed_not_owned
#print axioms Verif.Handle.all_closed
#print axioms Verif.Handle.empty_is_minus_one
#print axioms Verif.Handle.reset_same_number_twice
#print axioms Verif.Handle.self_move_closes

/-! ## C40 -/

#print axioms Verif.Socket.receive_one_partial
#print axioms Verif.Socket.receive_bytes
#print axioms Verif.Socket.receive_none
#print axioms Verif.Socket.send_receive
#print axioms Verif.Socket.receive_invents_nothing
#print axioms Verif.Socket.receivePlain_table
#print axioms Verif.Socket.honest_request_balanced
#print axioms Verif.Socket.oversize_accepted
#print axioms Verif.Socket.short_message_leaks
#print axioms Verif.Socket.two_descriptors_leak
#print axioms Verif.Socket.hostile_exhausts_descriptors

/-! ## C41 -/

#print axioms Verif.Seccomp.default_deny
#print axioms Verif.Seccomp.denied_killed
#print axioms Verif.Seccomp.emulated_trapped
#print axioms Verif.Seccomp.self_only
#print axioms Verif.Seccomp.pid_calls_self_partial
#print axioms Verif.Seccomp.no_new_process
#print axioms Verif.Seccomp.paths_mediated_partial
#print axioms Verif.Seccomp.numbers_right
#print axioms Verif.Seccomp.debug_sandbox_exact
#print axioms Verif.Seccomp.rules_agree
#print axioms Verif.Seccomp.classified
#print axioms Verif.Seccomp.threads_allowed
#print axioms Verif.Seccomp.paths_allowed
#print axioms Verif.Seccomp.addresses_allowed
#print axioms Verif.Seccomp.uring_allowed
#print axioms Verif.Seccomp.sysv_allowed
#print axioms Verif.Seccomp.may_signal_anyone
#print axioms Verif.Seccomp.debug_sandbox_permits

/-! ## C42 -/

#print axioms Verif.Syscall.emulate_faithful
#print axioms Verif.Syscall.arg_abi
#print axioms Verif.Syscall.openat_absolute
#print axioms Verif.Syscall.openat_own
#print axioms Verif.Syscall.cOpen_faithful
#print axioms Verif.Syscall.cBindOrConnect_faithful
#print axioms Verif.Syscall.cOpenat_faithful
#print axioms Verif.Syscall.other_signal
#print axioms Verif.Syscall.scan_iff
#print axioms Verif.Syscall.openat_null
#print axioms Verif.Syscall.openat_unreadable
#print axioms Verif.Syscall.proc_error_lost
#print axioms Verif.Syscall.emulate_ends_iff

/-! ## C43 -/

#print axioms Verif.ChildArgs.ptr_passed
#print axioms Verif.ChildArgs.cstr_passed
#print axioms Verif.ChildArgs.user_passed
#print axioms Verif.ChildArgs.heap_as_is
#print axioms Verif.ChildArgs.out_copied_back
#print axioms Verif.ChildArgs.in_not_copied_back
#print axioms Verif.ChildArgs.ptr_frame
#print axioms Verif.ChildArgs.sockaddr_heap_partial
#print axioms Verif.ChildArgs.sockaddr_private_refused
#print axioms Verif.ChildArgs.null_argument_ub
#print axioms Verif.ChildArgs.getaddrinfo_null_hints
#print axioms Verif.ChildArgs.getaddrinfo_null_host
#print axioms Verif.ChildArgs.user_result_lost
#print axioms Verif.ChildArgs.no_memory_ends_child
#print axioms Verif.ChildArgs.wrap_ends_iff

/-! ## C44 -/

#print axioms Verif.Lifetime.never_dead_partial
#print axioms Verif.Lifetime.destroyed_used
#print axioms Verif.Lifetime.destroyed_used_race
#print axioms Verif.Lifetime.waiting_message_used

/-! ## C45 -/

#print axioms Verif.FileTree.handles_conserved
#print axioms Verif.FileTree.lookup_open_handle

/-! ## C46 -/

#print axioms Verif.Child.failed_start_unnoticed
#print axioms Verif.Child.started_is_addressed_partial
#print axioms Verif.Family.failed_start_ends_host
#print axioms Verif.Family.failed_start_kills_all

/-! ## C47 -/

#print axioms Verif.Start.host_descriptors_kept_partial
#print axioms Verif.Start.sandbox_leaks_descriptors
#print axioms Verif.Start.gives_up_iff
#print axioms Verif.Make.host_kept

/-! ## C48 -/

#print axioms Verif.Start.pagemap_readonly_partial
#print axioms Verif.Start.pagemap_readonly_iff
#print axioms Verif.Start.pagemap_writable_without_proc
#print axioms Verif.Start.pagemap_writable_closed_stdin
#print axioms Verif.Make.pagemap_safe_iff
#print axioms Verif.Make.daemon_pagemap
#print axioms Verif.BsdMake.pagemap_writable_iff

/-! ## C49 -/

#print axioms Verif.Shm.heapSize_least_partial
#print axioms Verif.Shm.heapSize_least_iff
#print axioms Verif.Shm.heapSize_mod
#print axioms Verif.Shm.heapSize_zero
#print axioms Verif.Shm.heapSize_wraps

/-! ## C50 -/

#print axioms Verif.Shm.map_failure_unnoticed
#print axioms Verif.Shm.reservation_failure_unnoticed
#print axioms Verif.Shm.allocRange_failure_unmaps
#print axioms Verif.Shm.aligned_failure_unnoticed

/-! ## C51 -/

#print axioms Verif.Seccomp.installed_partial
#print axioms Verif.Seccomp.install_iff
#print axioms Verif.Seccomp.load_failure_unprotected
#print axioms Verif.Seccomp.missing_rule_stricter
#print axioms Verif.Seccomp.rules_kept

/-! ## C52 -/

#print axioms Verif.Syscall.not_emulated_unchanged
#print axioms Verif.Syscall.not_emulated_succeeds
#print axioms Verif.Syscall.emulated_are_trapped

/-! ## C53 -/

#print axioms Verif.Lifetime.never_other_sandbox
#print axioms Verif.Lifetime.table_right
#print axioms Verif.Lifetime.new_entry

/-! ## C54 -/

#print axioms Verif.AddrInfo.gai_query
#print axioms Verif.AddrInfo.gai_query_changing
#print axioms Verif.AddrInfo.gai_bad_name_is_null

/-! ## C55 -/

#print axioms Verif.ChildHeap.heap_truthful
#print axioms Verif.ChildHeap.proper_not_refused
#print axioms Verif.ChildHeap.others_proper

/-! ## C56 -/

#print axioms Verif.ChildHeap.exhaustion_ends_child
#print axioms Verif.ChildHeap.failure_never_reported
#print axioms Verif.ChildHeap.no_record_undefined
#print axioms Verif.ChildHeap.failure_ends_child
#print axioms Verif.ChildHeap.success_reported_partial

/-! ## C57 -/

#print axioms Verif.ChildHeap.Threads.threads_serial
#print axioms Verif.ChildHeap.Threads.one_inside
#print axioms Verif.ChildHeap.Threads.threads_progress

/-! ## C58 -/

#print axioms Verif.Main.library_confined_partial
#print axioms Verif.Main.library_descriptors_exact
#print axioms Verif.Main.library_finds_pagemap
#print axioms Verif.Main.calls_after_init

/-! ## C59 -/

#print axioms Verif.Main.own_path
#print axioms Verif.Main.fdlopen_finds_library

/-! ## C60 -/

#print axioms Verif.Pivot.entry_state
#print axioms Verif.Pivot.pivot_returns
#print axioms Verif.Pivot.stack_inside_partial
#print axioms Verif.Pivot.stack_outside_block
#print axioms Verif.Pivot.pivot_loses_rbx
#print axioms Verif.Pivot.portable_runs_iff
#print axioms Verif.Pivot.portable_unchecked

/-! ## C61 -/

#print axioms Verif.Init.one_pagemap_partial
#print axioms Verif.Init.single_iff
#print axioms Verif.Init.made_exact
#print axioms Verif.Init.used_before_made
#print axioms Verif.Init.made_twice

/-! ## C62 -/

#print axioms Verif.Message.invariant_outcome
#print axioms Verif.Message.invariant_kept_partial
#print axioms Verif.Message.throwing_uses
#print axioms Verif.Message.untested_uses
#print axioms Verif.Message.escaped_message
#print axioms Verif.Message.lone_brace_throws

/-! ## C63 -/

#print axioms Verif.Nest.nested_call_partial
#print axioms Verif.Nest.nested_call_restores
#print axioms Verif.Nest.nested_call_not_stuck
#print axioms Verif.Nest.nested_call_short
#print axioms Verif.Nest.throwing_leaks

/-! ## C64 -/

#print axioms Verif.Boot.same_view_partial
#print axioms Verif.Boot.same_view_iff
#print axioms Verif.Boot.starts_iff
#print axioms Verif.Boot.elsewhere_unnoticed

/-! ## C65 -/

#print axioms Verif.Make.library_exports
#print axioms Verif.Defaults.defaults_only
#print axioms Verif.Defaults.defaults_exact
#print axioms Verif.Defaults.defaults_all_partial
#print axioms Verif.Defaults.first_default_lost

/-! ## C66 -/

#print axioms Verif.EndToEnd.syscall_end_to_end
#print axioms Verif.EndToEnd.openat_end_to_end
#print axioms Verif.EndToEnd.no_memory_ends_program
#print axioms Verif.EndToEnd.trap_ends
#print axioms Verif.EndToEnd.openat_ends
#print axioms Verif.Run.path_no_memory

/-! ## C67 -/

#print axioms Verif.EndToEnd.new_sandbox_opens_only_libraries

/-! ## C68 -/

#print axioms Verif.Umtx.umtx_one_success_per_signal
#print axioms Verif.Umtx.umtx_no_lost_wakeup
#print axioms Verif.Umtx.umtx_picker_wakes
#print axioms Verif.Umtx.umtx_alert_succeeds
#print axioms Verif.Umtx.umtx_second_signal_aborts
#print axioms Verif.Umtx.umtx_alternating_never_aborts

/-! ## C69 -/

#print axioms Verif.Reap.descriptor_is_safe
#print axioms Verif.Reap.exit_answer_is_right

/-! ## C70 -/

#print axioms Verif.Reap.one_thread_is_safe_partial
#print axioms Verif.Reap.one_thread_learns_partial
#print axioms Verif.Reap.turns_are_safe_partial
#print axioms Verif.Reap.turns_learn_partial
#print axioms Verif.Reap.two_threads_end_the_host
#print axioms Verif.Reap.two_threads_kill_a_stranger
#print axioms Verif.Reap.other_thread_takes_the_event
#print axioms Verif.Reap.any_two_threads_end_the_host
#print axioms Verif.Reap.any_two_threads_kill_a_stranger
#print axioms Verif.Reap.any_other_thread_takes_the_event
#print axioms Verif.Reap.two_waiters_never_both_return
#print axioms Verif.Reap.two_waiters_end_the_host

/-! ## C71 -/

#print axioms Verif.Capsicum.execve_ends
#print axioms Verif.Capsicum.limited_partial
#print axioms Verif.Capsicum.started_limited_partial
#print axioms Verif.Capsicum.callback_socket_unlimited
#print axioms Verif.Capsicum.pagemap_writable_as_output
#print axioms Verif.BsdMake.bsd_program

/-! ## C72 -/

#print axioms Verif.FreeBsd.trapped_faithful
#print axioms Verif.FreeBsd.trapped_faithful_old
#print axioms Verif.FreeBsd.openat_absolute
#print axioms Verif.FreeBsd.openat_null
#print axioms Verif.FreeBsd.openat_unreadable
#print axioms Verif.FreeBsd.min_answer_undefined
#print axioms Verif.FreeBsd.not_emulated_unchanged
#print axioms Verif.FreeBsd.never_throws
#print axioms Verif.FreeBsd.emulate_ends_iff

/-! ## C73 -/

#print axioms Verif.Alloc.array_zeroed
#print axioms Verif.Alloc.array_none
#print axioms Verif.Alloc.array_outcome
#print axioms Verif.Alloc.object_written
#print axioms Verif.Alloc.object_outcome

/-! ## C74 -/

#print axioms Verif.Names.exclusive
#print axioms Verif.Names.anonymous
#print axioms Verif.Names.others_kept
#print axioms Verif.Names.no_leak
#print axioms Verif.Names.search_first
#print axioms Verif.Names.base_object

/-! ## C75 -/

#print axioms Verif.Poll.fair
#print axioms Verif.Poll.awake
#print axioms Verif.Poll.truthful
#print axioms Verif.Poll.end_once

/-! ## C76 -/

#print axioms Verif.Poll.interrupts_unnoticed_partial
#print axioms Verif.Poll.interrupt_ends_host
#print axioms Verif.Poll.kqueue_loop
#print axioms Verif.Poll.kqueue_iff

/-! ## C77 -/

#print axioms Verif.Race.history_legal
#print axioms Verif.Race.map_right
#print axioms Verif.Race.nothing_lost

/-! ## C78 -/

#print axioms Verif.Threads.turns_control_stack_partial
#print axioms Verif.Threads.turns_own_reply_partial
#print axioms Verif.Threads.turns_idle_partial
#print axioms Verif.Threads.turns_no_deadlock_partial
#print axioms Verif.Threads.callback_between_calls_ends_next_call
#print axioms Verif.Threads.concurrent_callbacks_cross
#print axioms Verif.Threads.concurrent_callbacks_abort
#print axioms Verif.Threads.concurrent_calls_abort
#print axioms Verif.Threads.concurrent_calls_mix
#print axioms Verif.Threads.any_two_calls_abort
#print axioms Verif.Threads.any_two_calls_mix
#print axioms Verif.Threads.any_late_callback_ends_next_call
#print axioms Verif.Threads.any_two_callbacks_cross
#print axioms Verif.Threads.any_two_callbacks_abort

/-! ## C79 -/

#print axioms Verif.Token.dead_sandbox_releases_host_partial
#print axioms Verif.Token.dead_loaded_iff
#print axioms Verif.Token.flag_clear_never_returns
#print axioms Verif.Token.cleared_flag_hangs
#print axioms Verif.Token.death_while_loading_hangs

/-! ## C80 -/

#print axioms Verif.NetEnd.network_ends
#print axioms Verif.NetEnd.network_call_end_to_end
#print axioms Verif.NetEnd.bad_network_call_refused
#print axioms Verif.NetEnd.closed_socket_ends_sandbox
#print axioms Verif.NetEnd.empty_function_throws
#print axioms Verif.NetEnd.hostile_network_outcome
#print axioms Verif.NetEnd.hostile_network_calls
#print axioms Verif.NetEnd.no_network_by_default
#print axioms Verif.NetEnd.own_descriptor_without_host
#print axioms Verif.Run.network_no_memory

/-! ## C81 -/

#print axioms Verif.Call.call_uses_its_frame
#print axioms Verif.Call.call_keeps_host_memory
#print axioms Verif.Call.call_returns_the_result
#print axioms Verif.Call.call_effect
#print axioms Verif.Call.calls_free_their_frames

/-! ## C82 -/

#print axioms Verif.Call.honest_check_partial
#print axioms Verif.Call.hostile_check_leaves_sandbox
#print axioms Verif.Call.check_exact
#print axioms Verif.Call.check_confined_iff

/-! ## C83 -/

#print axioms Verif.Authority.authority
#print axioms Verif.Authority.socket_answer
#print axioms Verif.Authority.socket_denied
#print axioms Verif.Authority.socket_told
#print axioms Verif.Authority.told_unique

/-! ## C84 -/

#print axioms Verif.Authority.isolation

/-! ## C85 -/

#print axioms Verif.Authority.layout_length
#print axioms Verif.Authority.stub_reaches_handler
#print axioms Verif.Authority.user_reached_iff

/-! ## C86 -/

#print axioms Verif.Balance.message_keeps_descriptors_partial
#print axioms Verif.Balance.messages_keep_descriptors_partial
#print axioms Verif.Balance.openat_leaks
#print axioms Verif.Balance.openat_exhausts
#print axioms Verif.Balance.decode_request
#print axioms Verif.Balance.message_leaks_iff
#print axioms Verif.Balance.messages_leak_exactly
#print axioms Verif.Balance.user_message_exact
#print axioms Verif.Balance.user_message_keeps
#print axioms Verif.Balance.all_messages_leak_exactly
#print axioms Verif.Balance.thrown_keeps_descriptors
#print axioms Verif.Balance.every_message_leaks_exactly
#print axioms Verif.Balance.sandboxes_leak_exactly
#print axioms Verif.Balance.other_requests_cost_nothing
#print axioms Verif.Balance.libs_hold_grants

/-! ## C87 -/

#print axioms Verif.Authority.every_message_answered
#print axioms Verif.Authority.message_ends_iff
#print axioms Verif.Balance.messages_stop_iff

/-! ## C88 -/

#print axioms Verif.Token.destroy_ends
#print axioms Verif.Token.failed_wait
#print axioms Verif.Token.destroy_in_callback_aborts
#print axioms Verif.Token.destroy_waits

/-! ## C89 -/

#print axioms Verif.UserEnd.user_callback_end_to_end
#print axioms Verif.UserEnd.bad_user_callback_refused
#print axioms Verif.UserEnd.told_exact
#print axioms Verif.UserEnd.closed_descriptor_ends_sandbox
#print axioms Verif.UserEnd.user_call_ends_iff
#print axioms Verif.UserEnd.hostile_user_calls
#print axioms Verif.Run.user_no_memory

/-! ## C90 -/

#print axioms Verif.NameEnd.lookup_end_to_end
#print axioms Verif.NameEnd.failed_lookup
#print axioms Verif.NameEnd.denied_lookup
#print axioms Verif.NameEnd.failure_reported_as_success
#print axioms Verif.NameEnd.hostile_lookup
#print axioms Verif.NameEnd.lookup_exact
#print axioms Verif.NameEnd.lookup_ends
#print axioms Verif.Run.lookup_no_memory

/-! ## C91 -/

#print axioms Verif.Rpc.hostile_neighbours

/-! ## C92 -/

#print axioms Verif.RelEnd.relative_openat_partial
#print axioms Verif.RelEnd.relative_openat_unfaithful
#print axioms Verif.RelEnd.closed_directory_ends_sandbox
#print axioms Verif.RelEnd.hostile_relative_openat
#print axioms Verif.RelEnd.relative_ends
#print axioms Verif.RelEnd.relative_openat_faithful_iff
#print axioms Verif.RelEnd.handler_ends_iff
#print axioms Verif.Run.relative_no_memory

/-! ## C93 -/

#print axioms Verif.Run.plain_same_iff
#print axioms Verif.Run.run_transparent
#print axioms Verif.Run.no_memory_ends_run
#print axioms Verif.Run.step_alike
#print axioms Verif.Run.end_transparent
#print axioms Verif.Run.runs_agree
#print axioms Verif.Run.meant_unique
#print axioms Verif.Run.meant_total
#print axioms Verif.Run.step_total
#print axioms Verif.Run.step_unique
#print axioms Verif.Run.step_proper
#print axioms Verif.Run.steps_unique
#print axioms Verif.Run.steps_iff_behaves
#print axioms Verif.Run.proper_run_transparent

/-! ## C94 -/

#print axioms Verif.Whole.library_transparent
#print axioms Verif.Whole.turn_matches
#print axioms Verif.Whole.client_ends
#print axioms Verif.Whole.toEnd_alike
#print axioms Verif.Whole.call_quiet
#print axioms Verif.Whole.no_frame_no_call
#print axioms Verif.Whole.returns_at_end
#print axioms Verif.Whole.called_unique
#print axioms Verif.Whole.calls_unique
#print axioms Verif.Whole.called_iff_willing
#print axioms Verif.Whole.calls_iff_able
#print axioms Verif.Whole.proper_library_transparent

/-! ## C95 -/

#print axioms Verif.Whole.Hostile.influence_through_results
#print axioms Verif.Whole.Hostile.same_results_same_program
#print axioms Verif.Whole.Hostile.own_memory_is_own
#print axioms Verif.Whole.Hostile.call_fits

/-! ## C96 -/

#print axioms Verif.Seccomp.substitutes_refused_partial
#print axioms Verif.Seccomp.conditional_refused
#print axioms Verif.Seccomp.originals_refused
#print axioms Verif.Seccomp.substitutes_numbered
#print axioms Verif.Seccomp.loopholes_open
#print axioms Verif.Seccomp.loopholes_are
#print axioms Verif.Seccomp.substitute_refused_iff

/-! ## C97 -/

#print axioms Verif.Reach.held_granted_partial
#print axioms Verif.Reach.held_granted_without_uring
#print axioms Verif.Reach.uring_reaches_anything

/-! ## C98 -/

#print axioms Verif.BsdPath.bsd_confined
#print axioms Verif.BsdPath.bsd_served
#print axioms Verif.BsdPath.wantedOp_permitted
#print axioms Verif.BsdPath.refused_as_on_linux
#print axioms Verif.BsdPath.bsd_openat_own
#print axioms Verif.BsdPath.bsd_no_memory
#print axioms Verif.BsdPath.bsd_openat_no_memory
#print axioms Verif.BsdPath.bsd_ends_iff

/-! ## C99 -/

#print axioms Verif.BsdPath.stat_writes_partial
#print axioms Verif.BsdPath.stat_effect
#print axioms Verif.BsdPath.stat_overruns
#print axioms Verif.BsdPath.stat_misread
#print axioms Verif.BsdPath.stat_ends
