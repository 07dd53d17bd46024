# Verification design: verona-sandbox (process sandbox)

This is the plan for the Lean 4 model in `/verif/lean`. The code under study is in `/repo` and is read as text only.
The plan is written before the proofs; the section "Status and findings" at the end is updated as proofs land.

## Trusted base

* The Lean 4.33 kernel and the axioms `propext`, `Classical.choice`, `Quot.sound` (checked with `#print axioms`, see `lean/Verif/Audit.lean`).
* The reading of the C++: each definition cites the file and lines it transcribes and says where it simplifies.
* The behaviour of code outside `/repo`, which the model takes as a parameter or states as an explicit hypothesis:

| Area | Assumed |
|------|---------|
| all | pointers are 64-bit numbers (`BitVec 64`), and relational comparison of pointers compares those numbers (x86-64 Linux) |
| Strings, PathSyscall, AddrInfo | `strnlen`, `memcpy`, `malloc`, `inet_*` and the resolver; where the sandbox can change memory between two reads, each read has its own memory |
| PathSyscall | the kernel's `openat2(RESOLVE_BENEATH)`, `dup`, `fstatat`, `faccessat` answers are parameters |
| Rpc, Teardown | snmalloc (not in the repository): its range allocator obeys the laws `Contained`, `Exact` and `Marks` (stated in `Rpc/Spec.lean`); slab records are at least 16-byte aligned; a backend entry has the sandbox bit clear; assigning an entry replaces both words; operations under the locks are atomic |
| Token | a wait blocks until the flag is set; `function_index` and `msg_buffer` are written in one step; handlers do not catch the exception; one thread in the sandbox |
| Sem | `futex` compares and sleeps atomically |
| Child | the answers of `waitpid` and `kevent` are an arbitrary list; FreeBSD's `WEXITSTATUS` is a shift, and the data of the event is the status word (`kqueue(2)`) |
| Start, Handle, Socket | kernel descriptor semantics (lowest free number, `SCM_RIGHTS` limited by the control buffer); close-on-exec is not modelled; `vfork` shares memory but copies the table; `EPOLLHUP` only when no process holds the peer |
| Location | `snprintf("%zx")`, `strtoull`, `strncmp` |
| Shm | `mmap` picks a free page-aligned range; `munmap` refuses unaligned or empty ranges and rounds lengths up; snmalloc's bit helpers |
| Vtable | the child's table is that of an honest child (a hostile one may do anything; the host only reads the value) |
| Seccomp | libseccomp semantics (64-bit comparison of arguments, foreign architectures killed, x32 by number), system-call numbers of `asm/unistd_64.h` |
| Syscall | on a trap the kernel leaves the call number in `rax` and `si_call_addr` after the instruction; `sscanf("%d")` |
| ChildArgs | the child's `malloc` gives a block of the heap apart from the caller's object |
| ChildHeap | `metadata_range` returns records not in use; `FlagLock` excludes; requests and answers stay whole and in order on the socket |
| Main | nothing between `execve` and `main` changes descriptors; `close` succeeds |
| Pivot | x86-64 instructions; the compiled run loop keeps to the calling convention; what the four calls of the thread library answer |
| Init | `Pagemap::init` is one step |
| Message | `fmt::vformat` throws for a placeholder without argument and ignores surplus arguments |
| Nest | the semaphores hand control over (the Token area); functions and handlers are numbers in, number out |
| Boot | kernels from 4.17 honour `MAP_FIXED_NOREPLACE`; both mappings are of the whole object |
| EndToEnd | the layout of `std::tuple` is libstdc++'s (last member first) in both programs; one thread in the child, and nobody else writes the shared memory during the call; the request and the answer arrive (Socket, Token); the argument wrappers are made in order and released in the opposite order |
| Umtx | the `SEM2` operations of `_umtx_op` as described in `Umtx/Model.lean` |
| Reap | `waitpid` fails once the child has been waited for; `EVFILT_PROCDESC` reports an exit once; process numbers are reused only after that; accesses to `status` are atomic |
| Capsicum | `rights(4)`: limiting never adds rights and fails on a closed descriptor; `open` gives the lowest free number; nothing between `execve` and `main` changes rights |
| FreeBsd | on a trap the call has failed already (carry flag and error set), `si_syscall` is the number of entry; call numbers of `sys/syscall.h`; `mode_t` has 16 bits |
| Alloc | `T()` of a trivial type writes zero bytes, placement new writes only the object |
| Names | `shm_open` with `O_CREAT` and `O_EXCL` is atomic; other programs remove only names of objects that such programs made |
| Poll | the ready queue of `epoll` is first in, first out, and a level-triggered descriptor goes to its end after a report |
| Race | the range allocator of snmalloc gives out only chunks that are in it, and taking and giving a block is atomic (the lock of the heap); a page map entry is read and written atomically; the host frees only blocks it has |
| Threads | as Token; threads run the same steps, and one that aborts does not stop the others in the model (more runs than in the code) |
| NetEnd | libstdc++'s layout of the argument tuple; the kernel passes descriptors with messages and fails `sendmsg` for closed ones; one thread of the child, no other writer to the shared memory |
| UserEnd | the functions of the host are arbitrary but return; one thread of the child, no other writer to the shared memory |
| NameEnd | what the lookup function gives is a parameter (each list fits its memory); the place of `localRes` on the stack is a parameter; one thread of the child, no other writer to the shared memory |
| RelEnd | the kernel's answers are arbitrary, except that a failing call gives -1; the number of a passed descriptor in the host is a parameter; one thread of the child, no other writer to the shared memory |
| Run | a program is any function of its memory and registers that does not look at the child's own memory (unused heap, the stack of the handler); the child's `malloc` gives five unused blocks per call, of the size of the largest object; the host's allocator gives blocks for lists that are neither these nor `localRes`, whose bytes belong to the program's memory; the host's world depends on everything that has happened; kernel answers do not depend on the address of a buffer; a callback and a lookup change one register |
| Whole | the host's program is any function of the results so far and its memory that does not look at unused heap; a function of the library is a `Run` program with its arguments, and its result a function of its memory and registers at the end; the memories of the processes agree on the heap and are independent elsewhere; frames are given from unused heap; host functions that run as callbacks do not call the library again |
| Reach | which calls give descriptors, and of what, is taken from the Linux manual (`Reach/Spec.lean`); nothing is ever closed, so the list is of all descriptors ever held; a descriptor that comes in through another one is attributed to that one; what the runner opens between `exec` and the installation of the filter is not counted; `binfmt_misc` with flag `O` is left out |
| BsdPath | FreeBSD honours `O_RESOLVE_BENEATH` and `AT_RESOLVE_BENEATH`; flag values of its `fcntl.h`; layouts of `struct stat` (224 bytes) and `struct freebsd11_stat` (120 bytes) on amd64 |
| Throw | as Token; exceptions are thrown only by handlers (user code), and destructors that run while unwinding do not touch the shared region |
| Records | snmalloc's `SmallBuddyRange` behaves as a correct allocator when used by one thread at a time and has no lock; an operation on it reads the state when it begins and writes it when it ends; the host accepts the chunks that are given back (C55) |
| OpenMode | what `open` ignores and what `openat2` refuses (manual pages, x86-64 numbers); an argument that was not passed is some value of its register |
| Alloc (`allocCall`) | overload resolution of C++17 and that `size_t` is `unsigned long`; `T` can be made from a number, otherwise the call with another type does not compile |
| RefArgs | what a call by reference means in C++; functions use their parameters one load or store at a time, and parameters are numbers |
| Timed | a sleep in the kernel ends at the first signal with a handler (`EINTR`) or when its time is over; the FreeBSD kernel then stores the time that remains; code takes no time; time is in milliseconds |
| Hb | runs are those of Token (interleavings); of the atomic operations only those of the semaphores and of `is_child_loaded` synchronise (leaving out the others makes the claim harder); a signal keeps the clock of its last writer only; steps are marked that have an event or use `function_index` and `msg_buffer` |
| Signals | one thread in the sandbox; a handler returns to the place that was interrupted (no `longjmp`); interrupted waits and receives begin again; no signal is lost or needed; memory that the emulation takes for its arguments is not modelled |
| SigMem | one thread; the 40 bytes of a request fit into the socket, so that `write` never waits; a `read` that waits and is interrupted by a handler without `SA_RESTART` ends with `EINTR`; which code needs memory, and when the local heap has to ask the host for more, is left open |
| Resize | that sizes are changed by `ftruncate` and `fallocate` only, with a descriptor open for writing (manual); the host resizes shared memory only when it makes it; what descriptors stand for is a parameter, with the assumption that the host does not export its shared memory |
| Make | no other thread of the host opens or closes descriptors during the constructor; `socketpair` gives two descriptors or none; the host's own heap memory does not run out; a write to `MAP_FAILED` faults |
| Cycle | as Make; the child is gone when a sandbox has been destroyed, and the memory service has looked at its sockets before the next is made; nothing is exported beyond the defaults; destroying snmalloc's allocators (`allocator`, `core_alloc`, declared before `shm` and so destroyed after it has been unmapped) does not touch the shared memory |
| BsdMake | as Make, for FreeBSD; `pdfork` gives the child a copy of everything that the host has open but kernel queues and its own process descriptor; the system reports the end of a stream socket exactly if no process has the other end open; capability mode allows `fork` (`cap_enter(2)`, `sys/kern/capabilities.conf`); the destructor has seen the end of the process before it closes anything (C43, C66); sandboxed code may keep whatever its process was born with, and keeps at least its end of the memory service's socket (`PageMapUpdates`), which the runner uses for every request |
| Pool | the pool of allocators is snmalloc's, has a lock of its own, and gives what it has before it asks for a new allocator; `SmallBuddyRange` is correct for one thread, given aligned chunks that are new (`Pool.Sound`, shown satisfiable); the host gives such chunks (C14, C55); an operation on the range reads its state once at the start and writes it once at the end, so the races shown are some, not all; requests to the host have a lock (`requestHostService`) |
| Family | `waitpid` with a number answers for that child of the host if there is one and fails otherwise; with -1 it answers for some child that has ended, or fails if the host has none; a child keeps its number until somebody has waited for it, and a new one gets a number that no child has (`wait(2)`, `kill(2)`); one thread |
| BsdEnd | as EndToEnd, with libc++'s layout of `std::tuple` (first member first), the frame of FreeBsd and the safe system calls of BsdPath; FreeBSD's error numbers are below 4096 |
| BsdNet | as NetEnd, with libc++'s layout of `std::tuple`, the frame of FreeBsd, and `ENOSYS` = 78 where no function was called |
| BsdRel | as RelEnd, with libc++'s layout of `std::tuple`, a `mode_t` of two bytes, the frame of FreeBsd and the safe system calls of BsdPath; a system call of the host that fails gives -1 |
| BsdFamily | closing the descriptor of a process takes it from every queue and kills the process if it runs; a queue reports the end of a process once, also if it came before the process was put into the queue; the descriptor of a process stays usable after its end; `kevent` on what is no queue, and for what is no process, fails (`pdfork(2)`, `kqueue(2)`); one thread |
| BsdName | FreeBSD's `struct addrinfo` (canonical name at 24, address at 32), `EAI_MEMORY` 6, `EAI_BADHINTS` 12, `ENOSYS` 78, and all error codes of lookups positive (`netdb.h`); libc++'s tuple; the rest as for NameEnd |
| BsdRun | as for BsdEnd, BsdNet, BsdRel, BsdName and UserEnd; as for Run: one thread of the child, nobody else writes to its memory while it waits, and the signal handler leaves all registers but the result and the carry flag |
| BsdAuthority | as for Authority, BsdPath, BsdName and BsdNet; nothing is assumed of the sandboxes or of the shared memory, which may differ at every read |
| BsdBalance | as for Balance and BsdAuthority; `recvmsg` on FreeBSD fails, and the packet is lost, if there is no number for its descriptor |
| BsdWhole | as for Whole and BsdRun |
| Call | the compiler's layout of a frame (result first, then the arguments, inside the structure); snmalloc gives blocks of the asked size inside the sandbox; freeing is only recorded; `send` either comes back or throws |
| Authority | actions are atomic with respect to each other (a message is handled to its end, though each of its reads sees a memory of its own); all libraries exist from the start; the kernel, the chosen network functions and the user's handlers are arbitrary functions, of which only the lists of results of `getaddrinfo` are assumed well formed (`Sane`); the range allocator stays inside its mapping (`Contained`) and consults the page map only about its own chunks (`Local`); the size of a type is never 0; libstdc++ puts the last member of a tuple first |
| Balance | the kernel gives new descriptors numbers that are free and below the limit (`Fresh`); one file object stands for every file opened; a function of the user leaves the table as it found it, but for the descriptor that it returns; an exception destroys the `Handle` of the message on its way out (`Thrown`) |
| Lifetime | a freed object is never the same as a live one (objects are numbered and numbers are not reused) |

* Sequential consistency for the shared header: runs are interleavings. The code uses `std::atomic` with default ordering, except the semaphore, which uses release on wake and acquire on wait. C106 proves from these orders that the uses of ordinary members are ordered by happens-before; that such a program then has only interleaved behaviour is a property of the C++ memory model, which is not itself modelled.

## Conventions

* Undefined behaviour, aborts (`SANDBOX_INVARIANT`) and thrown exceptions are separate outcomes of the model, never folded into ordinary results.
* Each area has a directory `lean/Verif/<Area>/` with `Model.lean` (transcription of the code), `Spec.lean` (independent statement of what is wanted), optional `Lemmas.lean` and `Props.lean` (property theorems, each followed by an `example` showing that its hypotheses can be met).
* When the code violates a property, `Props.lean` proves the negation with a concrete witness, and the true part as `..._partial`.

## Properties: what is modelled and how each is proved

| Id | Area | Model | Proof |
|----|------|-------|-------|
| C01 | Bounds | `contains` on `BitVec 64` | equivalence with byte-wise containment in `Nat`, by arithmetic |
| C02 | Callback | `CallbackHandler::invoke` over a byte memory with a read trace | case analysis; copy is a value, so independence of later writes is proved against an arbitrary later memory |
| C03 | Strings | `strdup_out` with separate byte sources for scan and copy | induction on the scan |
| C04 | Strings | `strdup` then `strdup_out` | negation witness; partial theorem under "next byte is zero" |
| C05 | Bounds | `alloc_in_sandbox` | arithmetic on `BitVec 64` products |
| C06 | Path | character-level constructor incl. backslash handling, `str` | induction; equivalence with split at '/' |
| C07, C08 | Path | index-based in-place list editing as in `std::list` | simulation by an explicit stack; prefix-count characterisation |
| C09 | Path | as above | walk semantics over an abstract directory set; negation for "."; exact condition by walking a free tree |
| C10-C13 | FileTree | nested tree with string splitting by `find_*_of`/`substr` (incl. `npos` wrap) | refinement to a leaf map by induction over histories |
| C14, C15 | PathSyscall | composition of string copy, path, tree and handler, emitting host calls | composition of the above; `Ends.lean`: the exact condition for an answer, whatever the allocator does |
| C16, C17 | Callback | handler table, registration, `handle` with socket queues and failure | induction over registrations |
| C18 | Net | `handle_bind_or_connect` with buffer | case analysis |
| C19 | Net | policy table | induction over configuration history |
| C20, C21 | AddrInfo | byte-level writes of the copy loop | induction over the result list; read-back theorem; negation for `ai_canonname` |
| C22-C24 | Rpc | request handler over pagemap and abstract range allocator | decision theorem; invariant over all interleavings |
| C25 | Rpc | host and sandbox operations over a range allocator contract, and a concrete buddy allocator for the counterexample | invariant (partial: size-aligned releases); negation witness |
| C26 | Rpc | service loop with socket queues and failures | induction; negation for unknown kinds |
| C27, C28 | Teardown | destructor loop over the pagemap | loop invariant; negation for multi-chunk slabs |
| C29, C30 | Token | two-process small-step machine, shared header, socket queues, arbitrary nesting | inductive invariant over all interleavings |
| C31, C32 | Token | same with a crash step and with hostile writes | partial theorem for the call in progress; for a hostile sandbox an invariant of the trapped host with a measure: from every state one write makes an abort certain (`one_write_aborts`) |
| C33 | Sem | futex semaphore with any number of threads at atomic-step granularity | inductive invariant |
| C34 | Child (and `Pd`) | the `waitpid` and `kevent` wrappers over an oracle of system answers | induction over queries; negation for signals |
| C35 | FdSetup | descriptor table with lowest-free `dup` | symbolic execution lemmas for every table; negation when a standard stream is closed, and exactly what the child then finds there (also C48, C58) |
| C36 | Location | hex print/parse at character level | digit induction |
| C37 | Vtable | export list and proxy numbering | induction |
| C38 | Shm | reservation/trim arithmetic | arithmetic |
| C39 | Handle | handle objects and descriptor table | inductive ownership invariant |
| C40 | Socket | ancillary data handling of `receive_msg` | case analysis; negation for leaks |
| C41 | Seccomp | the rule table, as data, with libseccomp matching | complete table check (`decide +kernel` over the whole finite table) plus general default-deny theorem; negation for allowed path calls |
| C42 | Syscall | register frame, dispatch, error convention | case analysis over the dispatch table, for all register values |
| C43 | ChildArgs | argument wrappers over a split address space | case analysis; negation for `bind`/`connect` |
| C44 | Lifetime | service thread and destruction as interleaved steps | negation witness; partial theorem when no request is pending |

| C45 | FileTree | the same tree | handles closed exactly once over a history |
| C46 | Child | the same wrapper | termination request reaches the right process |
| C47, C48 | Start | host constructor and destructor over the descriptor table | symbolic execution; induction over the number of sandboxes; negation (leak) |
| C49, C50 | Shm | heap size arithmetic; failing mappings | arithmetic; negation |
| C51 | Seccomp | installation over libseccomp's answers | case analysis: exactly when the filter is complete, absent or the process stopped; negation for release builds |
| C52 | Syscall | the same dispatch | negation for all 57 trapped calls without emulation |
| C53 | Lifetime | table of the service thread with descriptor reuse | inductive invariant over all interleavings |
| C54 | AddrInfo | the copies that the getaddrinfo handler makes before asking the policy | the query equals a reading of the message, for all memories, and for memory that the sandbox changes between search and copy |
| C55, C56 | ChildHeap | the child's snmalloc back end over the host's service (`Rpc`) | inductive invariant over histories of both processes; negation for exhaustion |
| C57 | ChildHeap | any number of threads in `requestHostService` under its lock | inductive invariant over all interleavings; serialization |
| C58 | Main | `main` of the runner after `start_child` (`Start`), with the filter's installation (`Seccomp`) | composition; negation for a closed standard stream |
| C59 | Main | decimal printing in `fdlopen`, parsing in `callback_openat` (`Syscall`), descriptors | round trip for all numbers |
| C60 | Pivot | the assembly as instructions over registers and byte memory | symbolic execution for all states; negation |
| C61 | Init | test, set and initialise as separate steps of any number of threads | invariant after the first thread has passed; the exact condition on the order of the steps, by induction (`single_iff`); negation (two interleavings) |
| C62 | Message | format strings at character level, the macros, the table of all 25 uses | induction over templates; check of the whole table; negation |
| C63 | Nest | proxies, run loop, callbacks and handlers over one shared message slot | refinement to direct calls, both directions, by induction on the recursion |
| C64 | Boot | constructor header, location text (`Location`) and the child's mapping | composition; negation for a mapping elsewhere |
| C65 | Defaults, Make | constructor of the dispatcher over the descriptor table and the tree (`FileTree`); the whole constructor | induction over the list; negation for the dispatcher alone with descriptor 0 free |
| C66 | EndToEnd | `Syscall`, `ChildArgs`, `Callback`, `Strings`, `PathSyscall` put together over one shared memory, with the frames as bytes | composition: refinement of a trapped call to the meaning of the call; `Ends.lean`: how every trapped call of the table ends for any registers and any number of blocks, as the conversion of its pointers (`converts`) |
| C67 | EndToEnd | the same with the tree of `Defaults` | corollary of C66 |
| C68 | Umtx | the FreeBSD semaphore with any number of threads at atomic-step granularity, with the kernel's queue and mark | inductive invariant |
| C69, C70 | Reap | both kinds of child handle used by any number of host threads, with the kernel's view of the child | inductive invariant over all interleavings, for one thread and for threads that take turns (`Serial.lean`); negation witnesses, and the same runs from every reachable state with a running child and two free threads, among any number of others (`Always.lean`); invariance of the stuck state |
| C71 | Capsicum | `execve` of the Capsicum policy over the descriptor table with rights, after `start_child` (`Start`) | induction over the list of limits; composition; negations |
| C72 | FreeBsd | the FreeBSD frame over registers and flags, with the dispatch of `Syscall` | refinement to the calling convention for all registers |
| C73 | Alloc | the three `alloc` overloads over byte memory | loop induction, frame condition |
| C74 | Names | any number of processes between `shm_open` and `shm_unlink`, with crashes and other programs | invariant over all interleavings |
| C75 | Poll | the kernel's ready queue and one turn of the service thread | invariant and position in the queue as measure |
| C76 | Poll | `poll` of both pollers against arbitrary results of the wait | induction; exact outcome for both pollers; negation for `kqueue` |
| C77 | Race | requests of the sandbox and the host's own allocations, each page map entry a step of its own | invariant with an assignment of each chunk to its holder as ghost state |
| C78 | Threads | any number of host and sandbox threads, each running the code of Token | simulation by one thread on each side; negations without turns, from every state between calls that threads taking turns can reach, for all threads and calls (`Always.lean`; bystanders by an embedding lemma) |
| C79 | Token/Hang | the protocol of Token after the death of a hostile sandbox | bounded steps by a measure, exactly when the host is released; negations, for every header with the flag clear, by an invariant of the loading loop |
| C80 | NetEnd | `bind` and `connect` from the registers through the copies, the frame, the dispatcher and the policy and back | composition of the parts' theorems; byte round trip; `Ends.lean`: how every such call ends |
| C81 | Call | `Function::operator()`, the frame, `ExportedFunction::operator()` and the turn of `runloop`, byte by byte, with the sandbox acting between any two steps of the host | trace of the host's accesses; byte round trip |
| C82 | Call | the constructor of a proxy with the type check of debug builds, `type_encoding`, `strcmp` | partial: honest sandbox; negation for a hostile one; `check_exact`: all that the host does, for any sandbox and any interference; `check_confined_iff`: exactly when that stays inside the sandbox |
| C83 | Authority | the host with any number of sandboxes: exports, network configuration, registration, messages of all kinds, memory operations | invariant over runs; specification in terms of the host's earlier actions only; exact answer to `bind` and `connect` (`Spec.Told`) |
| C84 | Authority | the same, in particular the page map and the service thread shared by all sandboxes | non-interference (two runs) |
| C85 | Authority | the tuples written by the seven stubs of `library_runner.cc` and their decoding by the handlers | byte round trip, composed with dispatch and the bounds check |
| C86 | Balance | `handle` (`libsandbox.cc:661-681`) with the descriptor that came with the message, those the handlers open and close, and the one in the reply | induction over messages on the descriptor table; exactly which message loses a descriptor, and how many a sequence loses (`Leaks`); the same account for any number of sandboxes while the host exports, configures, registers and uses descriptors itself (`Several`) |
| C87 | Authority | the dispatcher and all handlers, composed, over runs of any number of sandboxes | totality of every handler, lifted to runs; exact conditions of every other outcome (`Authority/Ends`, `Balance/Ends`) |
| C88 | Token/Destroy | the protocol of Token from the destructor on, also while the library loads | invariant and measure over all interleavings; negations by concrete runs and by induction |
| C89 | UserEnd | `invoke_user_callback` from the data through the copy, the message, the dispatcher and the typed handler and back | composition of the parts' theorems |
| C90 | NameEnd | `getaddrinfo` from the caller's names through the copies, the message, the policy and the list back to `*res`; the memory afterwards byte by byte | composition of the parts' theorems; equality with a function (`looked`); `Ends.lean`: how every lookup ends |
| C91 | Rpc | the memory service with any number of hostile sandboxes beside one that releases its blocks aligned to their size | invariant by induction over operations |
| C92 | RelEnd | `callback_openat` with a relative path, the frame, the passing of the directory, the dispatcher, `handle_openat` and the way back, composed | refinement of a two-line specification; negation with a witness for the result; all messages for hostile sandboxes; `Ends.lean`: how every such call ends |
| C93 | Run | a whole run: a program alternates with its calls (`EndToEnd`, `RelEnd`, `NetEnd`, `NameEnd`, `UserEnd` composed over time), with a host whose exports, functions and answers change in between | simulation of the sandbox by a machine in which calls act at once, by induction over the calls; uniqueness of the meaning of a call; the ideal machine is deterministic and goes on exactly as long as the calls are proper, refused and unknown calls included |
| C94 | Whole | a program of the host that calls functions of the library (`Call`), each of which runs as in `Run`, over two memories with the heap in common | simulation of host and child by a machine with the library linked in, by induction over the calls of the program and, inside each, over those of the function |
| C95 | Whole (Hostile) | a program of the host, which may catch exceptions, against an arbitrary sandbox that also changes the heap before every load and store of the host | the program on its own, fed with the results, as specification; induction over the calls; non-interference of two runs with the same results |
| C96 | Seccomp (SameProps) | the rule table against a table of substitutes drawn up from the manual | complete table check, with the conditional substitutes (`clone`, `tgkill`) proved for all arguments; the exact list of loopholes as negation |
| C97 | Reach | the filter, the host with all its sandboxes (`Authority`) and the start of the child (`Start`), with every descriptor represented by where it comes from | invariant over interleaved runs of system calls and host actions; negation by `io_uring` |
| C98 | BsdPath | the path handlers with the safe system calls of FreeBSD, over an arbitrary kernel | exact system call per request, compared with an independent specification and with the Linux model |
| C99 | BsdPath | `callback_stat` with `CallbackPtrArg` over the memory of the child, and both layouts of the structure | exact effect on memory; negation for the bytes after the structure and for the fields read |
| C100 | Throw | the protocol of Token with one more action, an exception that leaves `k` handlers and their calls | invariant with abandoned callbacks; replay against a stack with unwinding; measure; negations for a handler that catches and answers and for exceptions while loading |
| C101 | Records | any number of threads in `alloc_chunk` and `dealloc_chunk`, operations on `metadata_range` in two steps | inductive invariant, for runs without overlap; negation for every allocator |
| C102 | OpenMode | the flags and mode of `open`/`openat` from the program to the host's `openat2` | exact condition over all 32-bit flags and modes; negations |
| C103 | Alloc | which overload `alloc<T>(n)` is, by the type of `n` | exact result for `size_t`; negation for every other type |
| C104 | RefArgs | the copies that a call frame has of arguments passed by reference | simulation with a direct call, by induction on the function; exact condition; negations |
| C105 | Timed | the length of a timed wait under signals, both semaphores, and the loop of `send` | induction over system calls and turns; exact end; negation for Linux; exactly when a caller on Linux is told (`Exact`) |
| C106 | Hb | runs of the call protocol with vector clocks that follow release and acquire | invariant over clocks and control, on top of the invariant of Token; a run without release as control |
| C107 | Signals | the call protocol with handlers: interrupted places with the number of suspended callbacks | invariant of Token with a stack of interrupted places; a second invariant while the sandbox is destroyed; simulation by a run whose flag is cleared later, for builds without assertions; from every other place a run that breaks (`only_calm`: exact) |
| C108 | SigMem | `requestHostService` of one thread with a stack of interrupted code | at most one piece of code is inside a request, and the lock says so; from there every answer is the host's to its own request; negations for handlers without `SA_RESTART` and for requests in handlers |
| C109 | Resize | the descriptors of Reach and Main with the sizes of the kernel's objects | a descriptor of the start is never gained, so that closing two of them before the library is loaded suffices; exact condition; negations for `io_uring` and a closed stream |
| C110 | Token | the protocol of Token, a dead sandbox and a host at rest | symbolic execution of a whole call for every header; determinism; exact conditions; negations, one of them for the repository's own sandbox code |
| C111, C112 | Make | the whole constructor of `Library` over the descriptor table, with every refusal of the system (also C47, C48, C65) | tables as a list of objects filled into the free numbers; decision table for the ends; composition with Start and Defaults; negations |
| C113 | Cycle | the whole constructor and the destruction of a sandbox, again and again, over the host's descriptor table | composition of Make, Start and FileTree; a strictly decreasing count of free descriptors for every host; exact arithmetic for hosts with their low numbers in use, and that every host becomes such a one; negations |
| C114, C115 | BsdMake | the whole constructor on FreeBSD (`pdfork`, `kqueue`), the destructor and the memory service, for any number of sandboxes at a time, with processes that sandboxed code starts | invariant over every interleaving (each open descriptor has exactly one owner); exact outcome of the constructor; liveness of the memory service by construction; negation for every moment and every continuation |
| C116 | BsdMake (`Child`, `ChildProps`), Make | what the program of a new sandbox has, after any history, through constructor, `start_child` and `SandboxCapsicum::execve` | invariants over every history (the page map is one object at one number, no queue at the number of a stream); exact condition; negation for every host with a closed stream |
| C117 | Run (`Ends`) | how every call of every program ends, whatever it passes | a case analysis with one specification of the conversion of pointers for all calls (`converts`); induction over the calls for programs that are careful |
| C118 | Path (`Cwd`) | `Path::getcwd` and `make_absolute` with its default argument, `::getcwd` as a parameter that may fail | walks over an arbitrary tree; text by the round trip of C06; exact ends |
| C119 | Pool | `allocator_range`, `alloc_meta_data` and the pool of allocators, for any number of threads of the sandbox; the range, the pool's lock and the host's chunks are parameters | invariant over every run without overlap; negation from every state |
| C120 | Family | the `vfork` handle of any number of sandboxes in one host, over a kernel that keeps one table of children and uses numbers again; children of the host's own | invariant over every run; exact answer of every query; negations from every state |
| C121 | BsdEnd | a trapped `open`, `openat` of an absolute path, `access` or `freebsd11_stat` on FreeBSD, from the registers through the wrappers, the frame, the dispatcher and the handlers to the host's kernel and back | functional correctness against a specification in terms of the text, the exports and the kernel |
| C122 | BsdEnd | C121 with the exports that the constructor makes (Defaults) | composition: every answer of the specification for these exports is one of the allowed calls |
| C123 | BsdNet | as C80 on FreeBSD: the frame of Capsicum's signal, libc++'s tuple, `ENOSYS` as 78; handler, policies, dispatcher and copies are those of C80 | composition with the theorems of Net and FreeBsd; byte round trip; `Ends.lean`: how every such call ends |
| C124 | BsdRel | as C92 on FreeBSD: C72, the passing of the directory and the handler of C98, joined at the bytes of the tuple (libc++) | exact system calls and answer, for every memory and kernel; negation for the descriptor and the error; exact end of every call; confinement of hostile messages |
| C125 | BsdFamily | the `pdfork` handle of any number of sandboxes in one host, with process descriptors and kernel queues in the one table of descriptors of the host, whose numbers are used again | invariant over every run; exact answer of every query; negations from every state |
| C126 | BsdName | `getaddrinfo` on FreeBSD, from the call to the host's policy and back, with FreeBSD's `struct addrinfo`, codes and tuple | composition as for C90; a reader of FreeBSD's lists; exact condition under which the list is freed; how every call ends; negations for every lookup |
| C127 | BsdRun | any number of calls of a sandboxed program on FreeBSD (C121, C123, C124, C126 and callbacks) | refinement by simulation to a machine without copies, frames or messages; exact memory after a lookup; independence of allocator results |
| C128 | BsdRun (`Ends`), BsdEnd (`Ends`) | how every call of every program on FreeBSD ends, whatever it passes | as C117: one specification of the conversion of pointers for all calls (`converts`) and one of the call that the signal tells of (`wants`); induction over the calls for programs that are careful |
| C129 | BsdAuthority | the host on FreeBSD with any number of sandboxes: exports, network configuration, registration, messages of all kinds | as C83, C84 and C87: invariant over runs, specification in terms of the host's earlier actions only; non-interference; totality of every handler lifted to runs; exact answer to messages that are refused and to `bind` and `connect` |
| C130 | BsdBalance | `handle` (`libsandbox.cc:661-681`) on FreeBSD with the descriptor that came with the message, those the handlers open, and the one in the reply | as C86: induction over messages on the descriptor table; exactly which message loses a descriptor and how many a sequence loses, also with any number of sandboxes (`Several`); what happens when there is no number left |
| C131 | BsdWhole | as C94, each function of the library running as in `BsdRun` | as C94; the machine with the library linked in is deterministic, and it goes on exactly as long as calls are proper (`TotalProps`, also for C94) |
| C132 | Authority (`SocketsExact`, `PathsExact`, `LookupExact`, `UsersExact`), BsdAuthority (`AnswersExact`, `PathsExact`, `LookupExact`, `UsersExact`) | the reply to every kind of message, and the calls made for it, in runs with any number of sandboxes | exact specification (`Told`, `PathTold`, `RelTold`, `LookupTold`, `UserTold`) by what was granted to that sandbox; it admits one answer (`told_unique`, `pathTold_unique`, `relTold_unique`, `lookupTold_unique`, `userTold_unique`).  What a lookup stores is described by the list that a reader finds afterwards, if the place for the result is not in the block itself |
| C133 | Authority (`Memoryless`), BsdAuthority (`Memoryless`) | the reply to a message and the host's effects, in two runs | equality of what is seen, for runs that agree on the grants to the sandbox (`same_grants_same_treatment`), so also for the run without any message before (`messages_leave_no_trace`).  What the kernel, the memory and the functions answer is a parameter of each message: a leak of descriptors (C86), a block taken for a lookup, or a sandbox that was terminated because a reply could not be sent can make the next answer of the kernel or the memory differ.  That a message leaves the tree, the policies and the table as they are is how `handle` and the handlers were read (`src/libsandbox.cc:661-681`: no handler writes a member of the dispatcher), so it is part of the model and the theorems carry it through whole histories; a function of the host that itself exports or registers is an action of the host that follows the message |

Nothing in the list is marked not applicable.

## Not modelled

snmalloc internals (except a stand-in buddy allocator used for a counterexample), the dynamic linker, ELF loading, ASLR, the kernel's side of `kqueue`, weak memory effects, time-outs as real time outside of Timed (a time-out is a nondeterministic event), C++ template machinery (only its run-time effect).

## Status and findings

`MANIFEST.json` names the theorems of every property. The properties marked partial are those the code violates (with a theorem proving the violation, and a theorem for the part that holds) or those whose full statement needs an assumption the code does not ensure.

Where the code does not do what it is meant to do:

1. A memory request of unknown kind is answered `{0, 0}`, which means success (C26, `Rpc`).
2. `DeallocChunk` does not check that the address is a multiple of the size, so a sandbox can make its own range allocator hand out memory twice (C25).
3. `~Library` deletes the metadata of a slab once per chunk, so slabs of several chunks are freed twice (C28).
4. `handle_openat` returns the host's descriptor number as the integer result, and reports errors as -1 (C14).
5. `handle_access` and others pass a null path to the kernel for an empty tail (C15); so `access` of a path at which a file is exported fails whatever the mode, though the program can open it (C121 for FreeBSD).
6. `callback_bind_or_connect` tests the wrong way round whether the address is in shared memory: addresses elsewhere are always refused by the host (C43).
7. `getaddrinfo`: null host, service or hints are dereferenced in the child (C43); negative error codes are mangled; `ai_canonname` is a host pointer; the host's result is leaked; an empty result leaves the slot unwritten (C20, C21).
8. `Library::strdup` does not copy the terminating zero (C04).
9. `is_inside_shared_memory` lets sums wrap and excludes the last byte (C43 works around it with hypotheses).
10. A hostile sandbox can preset the semaphore and make the host abort; it can do so at every moment, by one write, and then no call returns or raises any more (C32).
11. The loop of the first call does not check that the child is still running (C31).
12. A child ended by a signal is reported with exit code 0; a failed `vfork` gives process number -1, and `terminate` then signals every process (C34, C46).
13. Receiving drops descriptors without closing them on short messages and when two are sent (C40).
14. `start_child` leaves copies at 0-2 when a standard stream is closed in the host, including the writable page map (C35).  In the constructor as a whole the closed numbers are taken before, see finding 59.
15. Trapped system calls without emulation return their own number to the caller (C52).
16. The filter allows `execve`, `execveat`, `utimensat`, `io_uring_*`, `setns`, datagram addresses, and signals to any process by `rt_sigqueueinfo` (C41).
17. The service thread uses a destroyed `Library` when a request is waiting at destruction (C44).
18. `Handle::reset` with the number it holds closes it and keeps the number; self-move drops the descriptor (C39).
19. Every sandbox leaks four descriptors and an entry of the service thread in the host, because the `vfork` child empties the parent's handles (C47, C48).
20. A call made from a callback while the library is loading waits for ever (C29).
21. `mmap` results are not checked; a failed allocation in the sandbox unmaps `[size, 2 size)` (C50); heap size 0 is an undefined shift, and sizes from 2^34 GiB wrap (C49).
22. Release builds run without the filter if loading it fails; `DEBUG_SANDBOX` builds only log (C51).
23. `callback_openat` reads the path before checking it for null; errors of `dup` become `EPERM` (C42).
24. Results that a user callback writes into data outside the heap are lost (C43).
25. A name pointer of a getaddrinfo request that is not a string in the sandbox is passed on to the policy as an absent name
    instead of refusing the request (C54, `gai_bad_name_is_null`).
26. When the host has no memory it answers with an error, and the child ends on any error: the test for a null chunk in
    `alloc_chunk` is never reached, and the slab record is used without a test for null (C56).
27. `main` passes the lowest address of the allocated stack to the pivot, so the run loop's stack is the memory below the
    block; the pivot also does not preserve `rbx`.  The portable version is right about the address but looks at no
    result of the thread library (`portable_unchecked`, C60).
28. With a closed standard stream in the host, the library itself finds the page map open for writing (C58).
29. `ensure_initialised` sets its flag before it initialises: a second thread can use the page map before there is one, and two threads
    can each make one (C61).
30. `SANDBOX_INVARIANT` passes its arguments as one string: six messages throw `format_error` instead of ending the process (C62).
31. A call that throws leaves its frame allocated in the sandbox's heap (C63).
32. The child does not compare the address at which the heap was mapped with the one it asked for (C64).
33. `open` returning 0 is taken for a failure: with descriptor 0 free, the dispatcher's constructor would not export `/lib` and would leak its descriptor.  In a `Library` this never happens, because the shared memory has taken that number before (`library_exports`, C65).
34. The child handle is used by callers and by the service thread without a lock. With process numbers, two concurrent queries can end
    the host (`waitpid` fails with `ECHILD`), and a kill can hit another process; with process descriptors a waiting destructor can hang (C70).  This is so from every state in which the child runs and two threads are free to begin; of two threads that wait at once, never do both return.
35. Under Capsicum the callback socket (descriptor 5) is not limited, although all descriptors are meant to be; with standard output closed
    in the host, the copy of the page map left at 1 may be written (C71).
36. With `kqueue`, a signal that interrupts the wait of the memory service ends the host (C76).
37. Neither `send` nor `callback` takes a lock. Two host threads in calls to one sandbox can end the host or mix up the calls; two threads of
    a sandbox in callbacks can get each other's replies or abort; a callback between calls makes the next call return before its function
    has run (C78; a comment in `shared_memory_region.h` knows of the sandbox's half).
38. The loading loop of `send` looks only at `is_child_loaded`, which the sandbox can write, and runs on every call (`is_first_call` is never
    cleared). A library that crashes while it loads, or a sandbox that clears the flag and exits, hangs the caller for ever (C79).
39. `bind`, `connect` or a relative `openat` with the number of a closed descriptor ends the sandbox instead of failing with `EBADF` (C80).
40. In debug builds the check of a new proxy compares and frees the pointer that the sandbox answers without looking where it points (`cxxsandbox.h:84-92`): a sandbox that answers with the address of the host's own type name makes the host free it; a wrong address is read; a null answer ends the host (C82).
41. Every successful relative `openat` leaves a descriptor open in the host: `handle_openat` (`libsandbox.cc:437-445`) returns the number as the integer of the result, so the `Result` does not own it, and nothing sends or closes it.  A sandbox that repeats the request takes all descriptors of the host (C86; what the sandbox gets instead of the file is finding 4).
42. A sandbox that is destroyed while its loader waits for the answer to a callback is woken with the callback unanswered; it signals the host's semaphore
    a second time and dies of a failed invariant instead of leaving by `exit(0)`, although the library did nothing wrong. The destructor waits without limit
    for a library whose code does not return: it sends no signal and sets no deadline (C88).
43. The child's `getaddrinfo` writes `*res` from an uninitialised local after every lookup that gives no list, and the host replaces a negative result by
    the negated `errno`; a lookup that fails with a negative code and `errno` 0 is thus reported as success, with a stack value as the list (C90).
44. With `AT_FDCWD` (or any other negative number) no descriptor is sent, and `handle_openat` calls `openat2` with directory `-1`; a relative path without a directory can therefore never be opened, and the program is told `EPERM` instead of `EBADF` (C92, together with finding 4).
45. The filter refuses `settimeofday`, `adjtimex`, `utime`, `utimes`, `futimesat`, `kill`, `tkill`, `setpriority` and `connect` but allows `clock_settime`, `clock_adjtime`, `utimensat`, `rt_sigqueueinfo`, `rt_tgsigqueueinfo`, `sched_setattr`, `sendto`, `sendmsg`, `sendmmsg` and `fcntl` (signals to any process by `F_SETOWN_EX` and `F_SETSIG`), which do the same (C96).
46. The filter traps `shmget`, `semget` and `msgget` but allows `shmat`, `shmctl`, `semop`, `semctl`, `semtimedop`, `msgsnd`, `msgrcv` and `msgctl`, which take numbers that are valid for the whole system and need none of the trapped calls; so the sandbox can attach to, change and remove System V objects of other processes of the same user (C41, `sysv_allowed`).
47. Because `io_uring` is allowed, the bound on the descriptors that a sandboxed process can hold does not hold (C97).
48. On FreeBSD the emulated call is `freebsd11_stat`, whose structure has 120 bytes, but the emulation passes on a `struct stat` of 224 bytes: every successful call overwrites 104 bytes after the program's structure (80 of them with zeros), and the program reads wrong fields, for example the nanoseconds of the modification time as the size (C99).
49. `send` and `handle` catch nothing and restore nothing. If a handler throws, its callback never returns in the sandbox and the depth stays raised for good. If another handler further out catches the exception and then answers, its answer goes to the abandoned callback, and both sides can end up waiting for each other for ever. If a handler throws while the library loads, every later call hangs (C100).
50. `metadata_range`, from which all threads of a sandbox take their slab records, has no lock (`child_malloc.h:88-89`, `library_runner.cc:240-242`, `:251`, `:270`). Two threads that allocate chunks at the same time get one record for two chunks, and a free that overlaps an allocation makes the range hand out a record that is in use. Also, `dealloc_chunk` gives the record back before the host is asked to forget the chunk, so the page map can name one record for two chunks (C101).
51. The host opens files with `openat2`, which refuses with `EINVAL` what `open` and `openat` ignore: unknown flags, a mode although no file is made, other flags beside `O_PATH`. The C function `openat` of the sandbox reads its mode even if none was passed (`library_runner.cc:926-928`), so that opening an existing file fails unless the register happens to hold 0; the trapped calls pass the register on as well. The C function `open` reads the mode only for `O_CREAT` (`:905`), so a temporary file (`O_TMPFILE`) is made without permissions (C102).
52. `lib.alloc<T>(n)` makes `n` objects only if `n` is a `size_t`. For an `int`, `unsigned`, `long long` or any other integer type the variadic overload (`sandbox.h:707`) is the better match, and makes a single `T` with the value `n`; so `alloc<char>(100)` is one byte (C103).
53. Arguments passed by reference are copied to the frame and not copied back (`cxxsandbox.h:35`, with a FIXME): what the function stores through a reference is lost, and a variable that is passed twice is two variables (C104).
54. On Linux, a timed wait that a signal interrupts begins again with its full timeout (`onebitsem_futex.h:65-73`). In a host with a timer signal at least every 100 ms, a call never notices that the sandbox has died: `send` looks at the process only after a wait has timed out (`libsandbox.cc:971-977`). The FreeBSD version uses the time that remains and is not affected (C105).
55. The sandboxed library may install signal handlers and set timers (`sandbox_seccomp-bpf.h:110,130-131`), and nothing is blocked while a call is emulated (`library_runner.cc:1057-1065`). A handler that makes a system call that is emulated runs `callback` and a run loop of its own inside whatever was interrupted. That is harmless in library code only. If the sandbox waits for the host, the host can be made to abort (it wakes the sandbox twice); inside a callback the handler gets the reply of the callback it interrupted, and the other way round; just after a wake-up the called function runs inside the handler; just before the report of a return, a debug build of the host aborts at its next call (C107). The same holds while the library is loaded, and a debug build aborts also if the signal arrives where the loader has just ended; when the host has begun to destroy the sandbox, a handler's callback is taken by nobody and the sandbox aborts instead of leaving.
56. `requestHostService` treats an interrupted `read` as fatal (`library_runner.cc:159-164`) and holds a lock that is not recursive (`:149-150`). A handler that the library installed without `SA_RESTART` ends the sandbox if its signal arrives while a request for memory waits for the answer. A handler that needs memory itself (each emulated system call may, for the copy of its path, `:598-604`) waits forever for the lock if its thread was inside a request (C108).
57. The shared memory is made without seals (`shm_posix.h:123`) and the filter allows `ftruncate` and `fallocate` (`sandbox_seccomp-bpf.h:161,279`), so a sandbox that gets hold of a descriptor for it can make it smaller, and the host dies by `SIGBUS` at its next access. On FreeBSD the rights forbid it (`sandbox_capsicum.h:78-79`); on Linux the only protection is that `main` closes the descriptors before the library is loaded (`library_runner.cc:1066-1069`). That suffices, except with `io_uring` (finding on C97) and in hosts with a closed standard stream (finding on C35), where the library finds the shared memory or the page map at that number (C109).
58. `send` looks at the semaphores before it looks at the process, and never resets them.  A call into a sandbox that has ended therefore returns, with whatever its frame held before, if the sandbox left the host's semaphore set.  That needs no hostility: if the sandbox ends between the host's wait and its look at the process, just after it has reported the end of a function, that call raises the exception although the function has run, and the next returns although its function has not (`crash_makes_call_return`).  Whatever the header holds, the second call into a dead sandbox aborts the host, since nobody takes the signal of the first (`next_call_ends_host`, C110).
59. A host with closed standard streams hands its own descriptors to its sandboxes: the numbers go to the first things that the constructor opens, and `start_child` leaves 0-2 alone.  In a host with two or three closed streams, such as a daemon, the first sandbox has the page map of all sandboxes open for writing as one of its standard streams, although `/proc` is usable and descriptor 4 is read-only (`daemon_pagemap`, C112, C48); later sandboxes get library directories or the host's end of their own sockets.
60. `Library::Library` reports no shortage: without a free descriptor, without shared memory, without a mapping or when `epoll_ctl` refuses, the host is ended by `abort`, by `exit(1)` or by a fault; the only failure that becomes an exception is that of `std::thread` (C111).
61. Every sandbox costs its host four descriptors for ever (the shared memory, both ends of the memory service's socket, the child's end of the callback socket: the `Handle`s are emptied by the `vfork` child, which shares the memory but not the descriptor table). With the usual limit of 1024 a host that has made 253 sandboxes, one at a time, is ended by `exit(1)` in the constructor of the next; with other limits it waits there for ever, because `move_fd` loops in the `vfork` child (C113).
62. On FreeBSD sandboxed code may call `fork`: capability mode allows it and nothing limits the number of processes (`sandbox_capsicum.h:22-25`). The destructor ends only the process that it knows (`child_process_pdfork.h`). A descendant keeps the shared memory and the socket of the memory service; the service is not told of an end and keeps the entry in `ranges`, with the address of a `Library` that no longer exists (C115, with C44 on what a request then does).
63. If `pdfork` fails, `pd` has no value and is used as a descriptor all the same (`child_process_pdfork.h:80-84`); without a descriptor for the queue the host ends by `err(1)` (C111, `bsd_ends_exactly`). The child reads `pd` without a value too, but does not use it.
64. A host with a closed standard stream gives the shared memory of its first sandbox to all later ones: it has the number of the closed stream, `start_child` leaves 0-2 alone, and on Linux the descriptor stays open even when that sandbox has been destroyed (finding 61). On FreeBSD the rights of the number apply, so a later sandbox may write to it (closed output or error) or read it (closed input) but not map it (C116). With two or three closed streams the page map is a stream, writable, in every sandbox, not only the first (`BsdMake.pagemap_writable_iff`, C48).
65. `Path::getcwd` makes a `std::string_view` from the result of `::getcwd` without looking whether it is null, so `make_absolute()` is undefined in a directory that was removed or cannot be read (`path.h:131-135`). `make_absolute` does not ask whether its base is absolute: with the system's answer for a directory outside the root, `(unreachable)/…`, it makes an absolute path beneath the root (C118). Neither is called by the library itself.
66. `allocator_range` of the child is, like `metadata_range` (finding 50), shared by its threads without a lock of its own: two threads that start to allocate at the same time may get the same allocator, or lose a chunk of the sandbox's memory for good (C119). The sandbox only harms itself by this.
67. A sandbox whose `vfork` failed harms the others: its handle holds -1, so each query about it may take the end of any other child of the host, after which the first query about that other sandbox ends the host by `err(1)`; with no other child its own first query does (C120, with C46). A host that waits for its children itself, or ignores `SIGCHLD`, is ended in the same way by the first query about a sandbox that has ended. Neither is documented.
68. Relative `openat` has the same two defects on FreeBSD as on Linux (findings on C92): the host neither sends the file that it opened nor translates the error, so the program finds a number that means another file or nothing, or `EPERM` (C124, C92).
69. What finding 63 means for other sandboxes: if the value that `pd` happens to have names the process of another sandbox (after an earlier `pdfork` in the same place on the stack it may), the new `Library` is made without a process and without an error, answers for the process of the other, and kills it when terminated. The destructor closes the other's descriptor; if its process has ended meanwhile and nobody has asked, the kernel queue of the other never tells, and its destructor waits for ever (C125).
70. On FreeBSD the codes of `getaddrinfo` are positive, so what finding 7 and C90 say about mangled errors holds there only for a negative result, which a function registered by the host program may give; then the program is told `-errno`, and with `errno` 0 that the lookup succeeded. The pointer to the canonical name is at another place, and is copied as on Linux; after a failure `*res` is written with what was on the stack there, too; and a list for which there is no memory is never freed (C126).
71. The leak of finding 41 is the same on FreeBSD (C130).  There it ends differently: without a free number `recvmsg` fails, so `handle` returns without a reply, and every later call of the sandbox that sends a descriptor waits for ever (`bsd_exhausted_loses`); on Linux such a message is handled as if no descriptor had been sent.

Mutation tests are recorded in `seeded/LOG.jsonl`.
