{"id": "C01", "title": "Sandbox bounds check is exact and wrap-free", "statement": "Library::contains(ptr, size) answers true exactly when ptr is at or above the first byte the check treats as heap, strictly below the top of the heap, and every byte ptr, ptr+1, ..., ptr+size-1 is below the top; no 64-bit wrap-around of ptr+size can make an out-of-range block look contained.", "quantifier": "for every 64-bit ptr and size and every well-formed sandbox region", "why_tests_cant": "the interesting cases are near 2^64 and depend on the region's address; there are 2^128 inputs per region", "anchors": ["include/process_sandbox/sandbox.h: SharedAllocConfig::LocalState::contains, Library::contains"]}
{"id": "C02", "title": "Typed callback handlers only ever see a complete, in-sandbox, private argument copy", "statement": "When the sandbox sends a callback request (kind, size, address), the handler's function runs only if size equals the size of its argument type and the whole block lies inside the sandbox heap; otherwise the reply is -ENOSYS and no byte is read. What the function sees is a private copy, so nothing the sandbox writes afterwards changes it.", "quantifier": "for every request triple, memory contents and later sandbox write", "why_tests_cant": "requests come from an attacker; a test only sends a few triples and cannot cover all racing writes", "anchors": ["include/process_sandbox/callbacks.h: CallbackHandler::invoke, CallbackHandlerBase::Result", "src/libsandbox.cc: CallbackDispatcher::handle"]}
{"id": "C03", "title": "Copying a C string out of the sandbox is memory safe under races", "statement": "strdup_out returns either null or a freshly allocated buffer that holds a terminating zero inside its bounds, and reads only bytes of the sandbox heap, even if the sandbox rewrites the string between the length scan and the copy. If the string is not modified, the result is exactly the C string at that address; null is returned exactly when the address is outside the heap or no zero byte exists before the heap's top.", "quantifier": "for every address, heap contents, and heap contents at the time of the copy", "why_tests_cant": "time-of-check/time-of-use races and missing terminators cannot be enumerated by tests", "anchors": ["include/process_sandbox/sandbox.h: Library::strdup_out"]}
{"id": "C04", "title": "Copying a string into the sandbox yields the same string", "statement": "The block returned by Library::strdup(s) contains s as a C string: reading it back with strdup_out (with no interference) returns s.", "quantifier": "for every string and every prior heap contents", "why_tests_cant": "whether the byte after the copied characters happens to be zero depends on the heap's previous contents", "anchors": ["include/process_sandbox/sandbox.h: Library::strdup, Library::strdup_out, Library::alloc"]}
{"id": "C05", "title": "Array allocation never returns an undersized block", "statement": "A request for count objects of a given size is refused when the byte count does not fit in 64 bits, and otherwise the underlying allocator is asked for exactly count*size bytes.", "quantifier": "for every count and element size", "why_tests_cant": "overflow needs huge counts; the boundary is one in 2^64", "anchors": ["src/libsandbox.cc: Library::alloc_in_sandbox", "include/process_sandbox/sandbox.h: Library::alloc"]}
{"id": "C06", "title": "Parsing a path and printing it gives the path back", "statement": "Printing a parsed non-empty path gives the original text, except that one trailing separator is dropped; in particular a backslash never hides a separator, and parsing the printed form gives the same path object when no information was dropped.", "quantifier": "for every non-empty character string", "why_tests_cant": "unbounded inputs with arbitrary mixtures of separators and backslashes", "anchors": ["include/process_sandbox/path.h: Path(std::string_view), next_separator, str"]}
{"id": "C07", "title": "A canonicalised path has no empty and no parent components", "statement": "When canonicalise succeeds the path contains no empty component and no '..' component, stays absolute/relative as before, and canonicalising again changes nothing; whatever it returns, no component is invented.", "quantifier": "for every component sequence", "why_tests_cant": "unbounded inputs", "anchors": ["include/process_sandbox/path.h: remove_empty, remove_dotdot, canonicalise"]}
{"id": "C08", "title": "Canonicalisation is exact lexical resolution and refuses exactly the paths that climb above their start", "statement": "canonicalise succeeds exactly when, reading the non-empty components left to right, the number of '..' never exceeds the number of other components; on success the result is the stack of names obtained by pushing each name and popping on each '..'.", "quantifier": "for every component sequence", "why_tests_cant": "the in-place list editing has unboundedly many interleavings of names and '..'", "anchors": ["include/process_sandbox/path.h: remove_dotdot, canonicalise"]}
{"id": "C09", "title": "Canonicalisation agrees with POSIX path resolution", "statement": "Walking a canonicalised path from a directory of a symlink-free file tree reaches the same node as walking the original path, with '.' meaning the directory itself and '..' its parent.", "quantifier": "for every path and every tree in which the walked names are directories", "why_tests_cant": "unbounded paths and trees", "anchors": ["include/process_sandbox/path.h: canonicalise"]}
{"id": "C10", "title": "The exported file tree refines a simple map for every export history", "statement": "After any sequence of add_file/add_directory calls with well-formed absolute paths, looking up a path gives: the handle of the nearest exported directory strictly above it together with the rest of the path; otherwise the file handle exported at exactly that path; otherwise nothing - where 'exported' is computed by a plain list of (path, handle) pairs in which a later export replaces what it hides.", "quantifier": "for every finite sequence of exports and every looked-up path", "why_tests_cant": "histories are unbounded and interact through overwriting", "anchors": ["include/process_sandbox/filetree.h: add_handle, add_file, add_directory, lookup_file"]}
{"id": "C100", "title": "A handler may throw: calls keep working, and no callback gets another's reply", "statement": "Handlers are code of the user and may throw, and no code of the library catches. Wherever the exception is caught, afterwards neither process aborts, calls made from the code that caught it still run their function and return, callbacks get their own replies, the sandbox can be destroyed, and nothing hangs.", "quantifier": "for every nesting of calls and callbacks, every schedule of the two processes, every sequence of exceptions and of places where they are caught", "why_tests_cant": "tests have no throwing handlers; the failures need nesting and show up one callback later", "anchors": ["src/libsandbox.cc: Library::send, CallbackDispatcher::handle, Library::wait_for_child_exit", "src/library_runner.cc: callback, runloop"]}
{"id": "C101", "title": "Threads of a sandbox never share a slab record", "statement": "When several threads of a sandbox allocate and free chunks at the same time, every chunk in use has a slab record of its own, no thread works with the record of another chunk, and the page map gives every chunk in use its own record; a record is never named by the page map for two chunks; and no record is lost when an operation has ended.", "quantifier": "for every number of threads, every interleaving of the steps of alloc_chunk and dealloc_chunk, and every correct sequential allocator of records and of chunks", "why_tests_cant": "a data race in a few instructions; the damage shows up in a later allocation", "anchors": ["src/library_runner.cc: alloc_chunk, dealloc_chunk", "src/child_malloc.h: metadata_range"]}
{"id": "C102", "title": "Flags and mode of open and openat mean what they mean to the kernel", "statement": "When a sandboxed program opens a file, the host's openat2 does what open would do with the program's flags and mode: flags unknown to the kernel are ignored, a mode is ignored unless a file is made, a mode that was not passed is not read, and a file that is made, temporary ones included, gets the mode the program asked for.", "quantifier": "for every value of flags and mode, with the mode passed or not and any left-over value in its place, for the trapped calls and the C functions", "why_tests_cant": "2^64 combinations; a left-over register is often 0 in tests", "anchors": ["src/library_runner.cc: open, openat, callback_open, callback_openat", "src/libsandbox.cc: handle_open", "include/process_sandbox/platform/safe_syscalls-linux.h: openat_beneath"]}
{"id": "C103", "title": "A number of objects is respected whatever its type", "statement": "lib.alloc<T>(n) makes room in the sandbox for n objects and initialises all of them, for an n of any integer type.", "quantifier": "for every integer type, count, object size, allocator and memory", "why_tests_cant": "one object too few is noticed only when a neighbour is in use; the compiler picks the overload silently, by the type of the argument", "anchors": ["include/process_sandbox/sandbox.h: Library::alloc"]}
{"id": "C104", "title": "A call by reference through a proxy is a call by reference", "statement": "Calling an exported function through its proxy has the result and the effect on variables passed by reference that calling the function itself has.", "quantifier": "for every function over its parameters, every choice of values and references as arguments, and every state of the variables", "why_tests_cant": "tests of the repository pass values and pointers only; a lost update needs a function that stores through a reference", "anchors": ["include/process_sandbox/cxxsandbox.h: argframe, Function::operator(), ExportedFunction::operator()"]}
{"id": "C105", "title": "A caller learns within a tenth of a second that the sandbox has ended", "statement": "If the sandbox ends while a call waits for it, and nobody signals the semaphore, the call throws less than 100 ms later (or at the end of its first wait), whatever signals the waiting thread receives.", "quantifier": "for every time of death, every time the wait begins, and every sequence of signals", "why_tests_cant": "a test would need a host with a fast timer and a sandbox that dies at the right moment, and could not tell a long wait from an endless one", "anchors": ["src/libsandbox.cc: Library::send", "include/process_sandbox/platform/onebitsem_futex.h: wait", "include/process_sandbox/platform/onebitsem_umtx.h: wait"]}
{"id": "C106", "title": "Passing control makes everything done before it visible", "statement": "Between a host and a sandbox that both run this code, every step that uses ordinary (non-atomic) members of the header, or passes data through the shared region or the socket, happens before every later such step of either side, in the sense of the C++ memory model: there is no data race between them.", "quantifier": "for every interleaving of host and sandbox, every nesting of calls and callbacks, and both build modes", "why_tests_cant": "a missing release or acquire shows only on processors with weak memory, and rarely", "anchors": ["include/process_sandbox/platform/onebitsem_futex.h: wake, wait", "include/process_sandbox/platform/onebitsem_umtx.h: wake, wait", "include/process_sandbox/shared_memory_region.h: SharedMemoryRegion", "src/libsandbox.cc: Library::send", "src/library_runner.cc: runloop"]}
{"id": "C107", "title": "Signal handlers of the sandboxed library may make system calls", "statement": "If a signal (say of a timer, which the filter allows) interrupts the sandbox and its handler makes a system call that is emulated by a callback, the program goes on as without the signal: no process aborts, every callback gets its own reply, functions called by the host do not run inside the handler.", "quantifier": "for every place at which signals arrive, any number of them, nested, with any callbacks made in the handlers and any calls nested in those, every interleaving of host and sandbox, and both build modes", "why_tests_cant": "tests use no signals, and a signal in the windows of a few instructions is rare", "anchors": ["src/library_runner.cc: main (SIGSYS handler, SA_NODEFER), emulate, callback, runloop", "include/process_sandbox/platform/sandbox_seccomp-bpf.h: rt_sigaction, setitimer allowed", "include/process_sandbox/platform/onebitsem_futex.h: wake, wait", "src/libsandbox.cc: Library::send"]}
{"id": "C108", "title": "A signal does not disturb the sandbox's requests for memory", "statement": "If signals interrupt code of the sandbox that asks the host for memory, the request is still answered with its own answer, the sandbox does not end, and handlers, whose emulated system calls need memory for their arguments, can ask for memory, too.", "quantifier": "for any number of signals at any places, nested to any depth, handlers installed with or without SA_RESTART, all requests and all behaviours of the host's allocator", "why_tests_cant": "the windows are short, a request to the host happens only when the local heap is exhausted, and tests use no signals", "anchors": ["src/library_runner.cc: requestHostService, SharedAllocRange, syscall_callback_helper", "include/process_sandbox/platform/sandbox_seccomp-bpf.h: rt_sigaction allowed", "src/libsandbox.cc: MemoryServiceProvider::run"]}
{"id": "C109", "title": "The library cannot take the shared memory away under the host", "statement": "From the moment at which code of the library runs, whatever it does, the shared heap and the page map keep the sizes that the host gave them, so that no access of the host through its mappings fails with SIGBUS.", "quantifier": "for every descriptor table of the host, all system calls and messages of the sandbox, in any interleaving with the host and other sandboxes", "why_tests_cant": "nothing in the tests truncates anything; the only protection on Linux is that main closes two descriptors before it loads the library, since the objects are not sealed and the filter allows ftruncate and fallocate", "anchors": ["src/library_runner.cc: main (close of SharedMemRegion and PageMapPage)", "include/process_sandbox/platform/shm_posix.h: SharedMemoryObjectMemFD", "include/process_sandbox/platform/sandbox_seccomp-bpf.h: ftruncate, fallocate, io_uring_enter allowed", "src/libsandbox.cc: Library::start_child"]}
{"id": "C11", "title": "A lookup never yields authority that was not exported", "statement": "Any handle returned by a lookup was passed to add_file or add_directory earlier; a file handle comes back only for the very path it was exported at and a directory handle only for paths strictly beneath it, together with exactly the remaining components.", "quantifier": "for every export history (including malformed paths) and every looked-up path", "why_tests_cant": "absence of authority is a statement about all histories", "anchors": ["include/process_sandbox/filetree.h: add_handle, lookup_file"]}
{"id": "C110", "title": "Every call into a dead sandbox raises the exception", "statement": "Once the sandbox has ended and the host is in none of its calls, every call into it raises std::runtime_error; none returns as if its function had run, none ends the host and none waits forever.", "quantifier": "for every state of the shared header and the sockets that the sandbox leaves behind, debug and release builds, and every sequence of later calls", "why_tests_cant": "tests end after the first exception; what later calls do depends on two semaphores and two flags that the sandbox leaves behind", "anchors": ["src/libsandbox.cc: Library::send, Library::has_child_exited", "include/process_sandbox/platform/onebitsem_futex.h: wake, wait", "include/process_sandbox/shared_memory_region.h"]}
{"id": "C111", "title": "A sandbox that cannot be made is reported to the caller", "statement": "If the system refuses anything that a new sandbox needs (descriptors, shared memory, mappings, the service thread, registration of its socket), the constructor of Library reports it by an exception, and the host goes on.", "quantifier": "for every table and limit of descriptors, every combination of refusals, first and later sandboxes, debug and release builds", "why_tests_cant": "refusals come when the system is short of resources; there are ten places in the constructor, and what happens depends on which comes first", "anchors": ["src/libsandbox.cc: Library::Library, MemoryServiceProvider::MemoryServiceProvider, add_range", "include/process_sandbox/platform/shm_posix.h", "include/process_sandbox/platform/socketpair_posix.h: create", "include/process_sandbox/platform/poller_epoll.h: add"]}
{"id": "C112", "title": "No descriptor that the constructor opens for itself reaches the sandbox", "statement": "Whatever the host has open when it makes a sandbox, the new process has as standard streams at most those of the host, and otherwise only the five objects that it is meant to have.", "quantifier": "for every descriptor table of the host, every disk, first and later sandboxes", "why_tests_cant": "needs hosts with closed standard streams (daemons) and the order in which the constructor opens its own descriptors", "anchors": ["src/libsandbox.cc: Library::Library, Library::start_child, CallbackDispatcher::CallbackDispatcher", "include/process_sandbox/platform/shm_posix.h: SharedMemoryObjectMemFD"]}
{"id": "C113", "title": "A host can make and destroy sandboxes for as long as it runs", "statement": "When a sandbox has been destroyed and its process is gone, the host has all the descriptors again that the constructor took (but for the page map and the poller, which are shared by all sandboxes); so a host that makes sandboxes one after the other, each destroyed before the next is made, can go on without limit.", "quantifier": "for every descriptor table and limit, every number of sandboxes, every disk, every answer of the system", "why_tests_cant": "the loss is a few descriptors for each sandbox, and the tests make a handful of them; it ends the host only after hundreds", "anchors": ["src/libsandbox.cc: Library::Library, Library::~Library, Library::start_child, MemoryServiceProvider::run", "include/process_sandbox/platform/child_process_vfork.h", "include/process_sandbox/platform/platform.h: Handle"]}
{"id": "C114", "title": "On FreeBSD every descriptor of every sandbox has one owner and is closed once", "statement": "However a host on FreeBSD makes, runs and destroys sandboxes, several at a time and in any order, what it had open before stays open and unchanged, and what is open besides is exactly, each once, the page map, the queue of the memory service, what the existing sandboxes hold and the sockets in the table of the memory service. The memory service is told of the end of every sandbox as soon as no process has its socket; when the last sandbox is gone only the page map and the queue remain, and a host with room for one sandbox can make any number in turn.", "quantifier": "for every descriptor table and limit, every disk, every answer of the system, every interleaving of any number of sandboxes, their ends and the memory service", "why_tests_cant": "a test makes one sandbox or a few at a time; a descriptor lost or closed twice for one order of events out of many shows as a failure elsewhere, much later", "anchors": ["src/libsandbox.cc: Library::Library, Library::~Library, MemoryServiceProvider::run", "include/process_sandbox/platform/child_process_pdfork.h", "include/process_sandbox/platform/poller_kqueue.h", "include/process_sandbox/platform/platform.h: Handle"]}
{"id": "C115", "title": "Nothing of a sandbox runs after it has been destroyed", "statement": "When the destructor of a sandbox has returned, no process runs that came from the sandbox, none has its memory or its sockets, and the memory service forgets it.", "quantifier": "for every host, every moment at which a sandbox runs, everything its code may do under the policy of the platform, and every continuation of the host", "why_tests_cant": "the process in question is one that hostile code starts; no test starts one", "anchors": ["src/libsandbox.cc: Library::~Library, MemoryServiceProvider::run", "include/process_sandbox/platform/child_process_pdfork.h", "include/process_sandbox/platform/sandbox_capsicum.h", "include/process_sandbox/platform/sandbox_seccomp-bpf.h"]}
{"id": "C116", "title": "A sandbox has nothing that was made for another sandbox", "statement": "Whatever sandboxes a host has made, run and destroyed before, the program of a new sandbox finds among its descriptors nothing that was made for another one, but for the page map, which it can only read.", "quantifier": "for every history of making, running and destroying sandboxes, every descriptor table of the host before the first, every place of the files", "why_tests_cant": "tests make one sandbox, from a process that has its standard streams open; the leak needs two and a host that runs without a terminal", "anchors": ["src/libsandbox.cc: Library::Library, Library::start_child", "include/process_sandbox/platform/sandbox_capsicum.h: execve", "include/process_sandbox/platform/child_process_pdfork.h", "include/process_sandbox/platform/child_process_vfork.h"]}
{"id": "C117", "title": "Whatever a sandboxed program passes to its calls, it is known how each call ends", "statement": "A sandboxed program makes any calls, with any pointers, numbers and descriptors, and its child has any number of blocks left.  A call is undefined exactly if in converting its pointers a null one comes to be followed, or the place for the result of a lookup is null; the child dies if a block is needed and there is none, or if the descriptor that goes with the call does not exist; an exception goes through the host only if it has registered an empty function; and otherwise the program goes on, with its blocks free again.  So a program that passes no null pointer and no closed descriptor goes on for ever, whatever else it passes and whatever the host answers.", "quantifier": "for all programs, all calls, registers, memory contents and descriptors, all numbers of blocks, all histories of exports and registrations and all answers of the kernel and of the host's functions", "why_tests_cant": "tests make a few calls with good arguments; that no other argument ends the child, and that the order in which pointers are converted decides between the ends, is a claim about all of them", "anchors": ["src/library_runner.cc: emulate, syscall_callback_helper, invoke_user_callback, getaddrinfo, callback", "src/libsandbox.cc: CallbackDispatcher::handle", "include/process_sandbox/callbacks.h: CallbackHandler::invoke"]}
{"id": "C118", "title": "A relative path made absolute names the file that it named", "statement": "Path::make_absolute() on a relative path gives an absolute path that leads from the root, in every directory tree, to where the relative path leads from the working directory; its text is that of the working directory, a separator and the path.", "quantifier": "for all paths, all answers of getcwd (including failure), all directory trees, debug and release builds", "why_tests_cant": "the test makes one path absolute in a working directory that exists; the claim is about every answer of the system, also none, and every tree", "anchors": ["include/process_sandbox/path.h: Path::getcwd, Path::make_absolute"]}
{"id": "C119", "title": "Each thread of a sandbox has an allocator of its own", "statement": "No two threads of a sandbox ever have the same allocator, an allocator that a thread uses is not in the pool, none is in the pool twice, and each lies in a chunk that the host gave and that is used for nothing else.", "quantifier": "for all correct buddy allocators and all hosts, any number of threads, all interleavings of requests for an allocator, their return, and requests for other chunks", "why_tests_cant": "two threads must be inside allocator_range at the same moment; no test starts a thread in the sandbox", "anchors": ["src/library_runner.cc: SharedMemoryRange, allocator_range, alloc_meta_data", "src/child_malloc.h: alloc_pool"]}
{"id": "C12", "title": "A refused export changes nothing", "statement": "add_file/add_directory returns false exactly when the path passes through an exported directory handle, and then every later lookup answers as before; a successful export of a file makes it reachable at its path, and one of a directory makes everything beneath reachable.", "quantifier": "for every tree reachable by any history, path and handle", "why_tests_cant": "needs all histories; tests exercise a handful of trees", "anchors": ["include/process_sandbox/filetree.h: add_handle, add_file, add_directory"]}
{"id": "C120", "title": "The handle of a sandbox speaks of its own process", "statement": "With any number of sandboxes and other children in one host, every query about a sandbox says whether the process of that sandbox has ended and with what code, what it has said stays true even when the number of the process is used again, no query ends the host, and terminating a sandbox signals its process and no other.", "quantifier": "for all runs: sandboxes made and ended, queries that wait or not, interrupted any number of times, terminations, other children of the host, numbers used again", "why_tests_cant": "the tests make sandboxes whose process is always started, in a host without other children; a recycled process number or a failed vfork does not occur", "anchors": ["include/process_sandbox/platform/child_process_vfork.h: ChildProcessVFork", "src/libsandbox.cc: Library::has_child_exited, Library::terminate, Library::wait_for_child_exit"]}
{"id": "C121", "title": "On FreeBSD, too, a system call on a path gives the program what it means in the sandbox", "statement": "When Capsicum refuses an open, openat of an absolute path, access or freebsd11_stat of a sandboxed program, made directly or through syscall or __syscall, the program goes on with what the call means for the text that it passed and the exports of its sandbox, in rax and the carry flag; the host makes exactly the one system call that this takes, beneath the export, or none; no other register changes, the child's blocks are free again and its memory is as before; for stat the buffer holds what the host's kernel said.", "quantifier": "for all exports, paths, flags, memory contents and layouts, answers of the host's kernel, ways of making the call", "why_tests_cant": "FreeBSD is not run in the Linux tests; the whole way depends on the frame of the signal, the layout of libc++'s tuples, the copies in the child, the host's checks and its kernel", "anchors": ["src/library_runner.cc: emulate, syscall_callback, callback_open, callback_stat, callback_access, callback_openat, syscall_callback_helper", "include/process_sandbox/platform/syscall_context_freebsd.h: SyscallFrameFreeBSDX8664", "include/process_sandbox/platform/safe_syscalls-freebsd.h: SafeSyscallsFreeBSD", "src/libsandbox.cc: CallbackDispatcher"]}
{"id": "C122", "title": "A new sandbox on FreeBSD can open only libraries", "statement": "A program in a sandbox on FreeBSD to which the host has exported nothing of its own opens a path with open or openat of an absolute path. Either the host makes no system call and the program finds EINVAL or ENOENT, or the resolved path is the linker's cache, whose descriptor the host duplicates, or it lies strictly beneath /lib, /usr/lib or /usr/local/lib, and the host's only system call opens the rest of the path beneath its open descriptor of that directory with O_RESOLVE_BENEATH.", "quantifier": "for all paths, flags, modes, descriptor tables and file systems of the host, memory contents and layouts, answers of the host's kernel", "why_tests_cant": "FreeBSD is not run in the Linux tests, and no test lists the paths that a new sandbox refuses", "anchors": ["src/libsandbox.cc: CallbackDispatcher::CallbackDispatcher, libdirs", "include/process_sandbox/platform/safe_syscalls-freebsd.h: SafeSyscallsFreeBSD", "src/library_runner.cc: callback_open, callback_openat"]}
{"id": "C123", "title": "On FreeBSD, too, a network call reaches the function that the host has chosen, intact or not at all", "statement": "When Capsicum refuses bind or connect of a sandboxed program, made directly or through syscall or __syscall, the function chosen by the host's last configuration call about that operation is called once, with the program's socket and exactly the bytes of the address, and the program finds its result in rax and the carry flag, or ENOSYS (78) if none is chosen; no other register changes. A call that cannot be passed on calls nothing and gives the program an error or ends the sandbox; how every call ends is determined by the address, the blocks left, the socket and the configuration. Whatever messages a hostile sandbox sends, only chosen functions are called, and none if the host has configured nothing.", "quantifier": "for all configurations, memories, registers, ways of making the call, messages and results of the functions", "why_tests_cant": "FreeBSD is not run in the Linux tests; the path from the registers to the policy goes through six components and three copies, with another layout of the tuple", "anchors": ["src/library_runner.cc: callback_bind_or_connect, callback, syscall_callback", "include/process_sandbox/platform/syscall_context_freebsd.h: SyscallFrameFreeBSDX8664", "src/libsandbox.cc: handle_bind_or_connect, CallbackDispatcher::handle", "include/process_sandbox/netpolicy.h: NetworkPolicy::invoke", "include/process_sandbox/callbacks.h: CallbackHandler::invoke"]}
{"id": "C124", "title": "On FreeBSD, too, openat with a relative path opens that path beneath the program's directory and gives the program the file", "statement": "When Capsicum refuses openat of a sandboxed program, with a relative path, made directly or through syscall or __syscall, the host opens the path as it stands, with the program's flags and the 16 bits of its mode and O_RESOLVE_BENEATH, beneath the directory whose descriptor the program gave and nowhere else, closes its copy of that descriptor and does nothing else; the program gets a descriptor of the file or the error of the host's kernel, in rax and the carry flag, and no other register changes. How every call ends is determined by the path, the blocks left and the directory. Whatever a hostile sandbox sends, the handler opens only beneath the descriptor that came with the message.", "quantifier": "for all memories, registers, ways of making the call, directories, answers of the host's kernel and messages", "why_tests_cant": "FreeBSD is not run in the Linux tests; openat there has another tuple layout, another mode type and another way to confine the lookup", "anchors": ["src/library_runner.cc: callback_openat, callback, syscall_callback", "include/process_sandbox/platform/syscall_context_freebsd.h: SyscallFrameFreeBSDX8664", "include/process_sandbox/platform/safe_syscalls-freebsd.h: openat_beneath", "src/libsandbox.cc: handle_openat, CallbackDispatcher::handle", "include/process_sandbox/callbacks.h: CallbackHandler::invoke"]}
{"id": "C125", "title": "On FreeBSD, too, each sandbox of a host watches and ends its own process and no other", "statement": "For any number of sandboxes in one host, made and destroyed in any order while the host opens and closes files of its own and descriptor numbers are used again: a query about a sandbox says exactly whether its own process has ended and how; waiting returns exactly when it has ended; terminating a sandbox kills its process if it runs and nobody else; destroying it comes to an end exactly when the process has ended, kills nobody, closes its two descriptors and leaves every other sandbox as it was; and the host ends only where no kernel queue can be had for a new sandbox.", "quantifier": "for all numbers of sandboxes, orders of steps, descriptor numbers, ends and interruptions", "why_tests_cant": "tests have one sandbox at a time and run on Linux; pdfork failing, numbers used again and two handles for one process do not arise", "anchors": ["include/process_sandbox/platform/child_process_pdfork.h: ChildProcessPDFork, wait_for_exit, exit_status, terminate", "include/process_sandbox/platform/platform.h: Handle", "src/libsandbox.cc: Library::~Library, Library::terminate"]}
{"id": "C126", "title": "A name lookup on FreeBSD comes back with the host's list or the host's error", "statement": "A sandboxed program on FreeBSD that calls getaddrinfo, with its names, hints and result anywhere in its memory, has the function that the host chose called once with exactly those names and the four numbers of the hints; it is told that function's error code exactly, EAI_MEMORY if there is no memory, or 0 with a list in FreeBSD's layout, equal to the host's and wholly inside the sandbox's heap, at *res; nothing else of its memory changes; no pointer of the host is left in it; and whatever a hostile sandbox sends, at most the chosen function is called and nothing outside the heap is written.", "quantifier": "for all names, hints, placements of the arguments, lists, results, policies and messages", "why_tests_cant": "tests run on Linux, where the structure, the codes and the tuple are laid out differently, and resolve nothing that fails", "anchors": ["src/libsandbox.cc: handle_getaddrinfo, return_int", "src/library_runner.cc: getaddrinfo, callback_helper", "include/process_sandbox/netpolicy.h: invoke"]}
{"id": "C127", "title": "A whole run of a sandboxed program on FreeBSD is what it would be without the sandbox's machinery", "statement": "A sandboxed program on FreeBSD that makes any number of calls (open, freebsd11_stat, access, openat, bind, connect, getaddrinfo, registered callbacks, refused calls and calls that are not emulated) runs exactly as on a machine on which each call does at once what the host's exports and policies say: the same registers with the carry flag, the same memory apart from what the child keeps for itself, the same calls of the host in the same order, and every copy freed, whatever blocks malloc gives.", "quantifier": "for all programs, numbers of calls, memories, exports, policies, kernels and allocator results", "why_tests_cant": "tests make a few calls on Linux only; no test compares a whole run with what it should be, and FreeBSD's handler takes its numbers and the carry flag from other places", "anchors": ["src/library_runner.cc: emulate, syscall_open, syscall_stat, syscall_openat, bind, connect, getaddrinfo, invoke_user_callback", "include/process_sandbox/platform/syscall_context_freebsd.h: get_arg, set_success_return, set_error_return", "src/libsandbox.cc: handle"]}
{"id": "C128", "title": "Whatever a sandboxed program on FreeBSD passes to its calls, it is known how each call ends", "statement": "A sandboxed program on FreeBSD makes any calls, with any pointers, numbers and descriptors, directly or through syscall, and its child has any number of blocks left.  A call is undefined exactly if it is an openat whose path is neither null nor a string, or in converting its pointers a null one comes to be followed, or the place for the result of a lookup is null; the child dies if a block is needed and there is none, or if the descriptor that goes with the call does not exist; an exception goes through the host only if it has registered an empty function; and otherwise the program goes on, with its blocks free again.  So a program that passes no null pointer and no closed descriptor goes on for ever, whatever else it passes and whatever the host answers.", "quantifier": "for all programs, all calls, registers, signals, memory contents and descriptors, all numbers of blocks, all histories of exports and registrations and all answers of the kernel and of the host's functions", "why_tests_cant": "there are no tests of the handler on FreeBSD with bad arguments; which of them end the child, and in which order, is a claim about all of them", "anchors": ["src/library_runner.cc: emulate, callback_openat, syscall_callback_helper, invoke_user_callback, getaddrinfo, callback", "include/process_sandbox/platform/syscall_context_freebsd.h", "src/libsandbox.cc: CallbackDispatcher::handle"]}
{"id": "C129", "title": "On FreeBSD, too, the host acts for a sandbox only by virtue of what it granted to that sandbox, and answers every message", "statement": "A host on FreeBSD with any number of sandboxes exports files, configures networks and registers callbacks, while every sandbox sends whatever messages it likes and writes to its memory at any time.  Whatever the host does because of a message is one of these: nothing; at most one system call on a file that was exported to this sandbox before, confined to it by O_RESOLVE_BENEATH or AT_RESOLVE_BENEATH, with results only in this sandbox's heap; an openat confined beneath the descriptor that the sandbox itself sent, and the closing of it; one call of the function chosen for this sandbox's network; one lookup by the chosen function with the list written into this sandbox's heap; one call of the handler registered for this sandbox under that number.  A descriptor in a reply was obtained in that way.  What happens to one sandbox is what would happen if it were the only one.  Every message of full size is answered exactly once, a shorter one has no effect, and a message with an unknown number, a wrong size or arguments outside the heap makes the host do nothing and is answered with -ENOSYS.", "quantifier": "for all numbers of sandboxes, all sequences of grants and messages, all contents of messages and of shared memory at each read, all answers of the kernel and of the host's functions", "why_tests_cant": "there is no test with a hostile sandbox on FreeBSD, and the claim is about all messages after all histories", "anchors": ["src/libsandbox.cc: CallbackDispatcher, handle_path, handle_openat, handle_bind_or_connect, handle_getaddrinfo, register_callback", "include/process_sandbox/callbacks.h: CallbackHandler::invoke", "include/process_sandbox/platform/safe_syscalls-freebsd.h"]}
{"id": "C13", "title": "Once a directory handle is exported it is never replaced by a virtual tree", "statement": "After a directory has been exported at a path, no later sequence of exports makes a path beneath it resolve to anything but that directory handle.", "quantifier": "for every history after the export", "why_tests_cant": "it takes a specific multi-step history to violate it", "anchors": ["include/process_sandbox/filetree.h: add_directory (documentation comment), add_handle"]}
{"id": "C130", "title": "On FreeBSD, handling messages neither gains nor loses descriptors of the host", "statement": "After any number of messages of a sandbox have been handled by a host on FreeBSD, the host has exactly the descriptors that it had before: those that came with the messages, those that handlers opened on the way and those put into replies are closed, whether or not the reply could be sent.", "quantifier": "for all tables of descriptors, also full ones, all sequences of packets with any content, all contents of shared memory and all answers of the kernel", "why_tests_cant": "a leak of one descriptor per message shows after a thousand messages of one kind; tests send a few, and none are run with a full table", "anchors": ["src/libsandbox.cc: SandboxCallbacks::handle, handle_open, handle_openat, handle_access, handle_stat, handle_bind_or_connect", "include/process_sandbox/callbacks.h: CallbackHandler::invoke", "include/process_sandbox/platform/safe_syscalls-freebsd.h", "include/process_sandbox/platform/platform.h: Handle", "include/process_sandbox/platform/socketpair_posix.h: receive_msg"]}
{"id": "C131", "title": "On FreeBSD, a program that uses a sandboxed library gets what it would get with the library linked in", "statement": "A program of the host computes, calls functions of a sandboxed library, goes on with the results and with what it finds in the shared memory, as often as it likes; the functions compute, make system calls and call functions of the host.  The program runs exactly as on a machine in which a call of the library just runs the function on the program's arguments and the shared memory as it is, and each call of the function acts at once: no call throws, every call returns the same bytes, both memories are the same but for unused memory, and the same system calls and functions have been made in the host, in the same order.  The program ends if it would end.  What it would get is settled: the machine with the library linked in never does two different things, and does something exactly as long as the calls are proper.", "quantifier": "for all programs, all libraries whose functions do not look at memory that they have not been given, all numbers of calls of the library and of calls in each, all memory contents, all choices of the two allocators, all worlds of the host, on FreeBSD", "why_tests_cant": "it is about unbounded alternations of two programs in two processes; a test is one program and one library, and an argument, result or effect that is lost between two layers shows only for some of them", "anchors": ["include/process_sandbox/cxxsandbox.h: Function::operator(), ExportedFunction::operator(), ExportedLibrary::call", "src/libsandbox.cc: Library::send", "src/library_runner.cc: runloop, emulate, invoke_user_callback, getaddrinfo", "include/process_sandbox/platform/syscall_context_freebsd.h"]}
{"id": "C132", "title": "The host's answer to every message, and what it does for it, are exactly what its grants to that sandbox say", "statement": "With any number of sandboxes and after any history: the reply to an open, stat, access, openat, bind or connect request, number and descriptor, and the list of system calls or network functions that the host calls for it, with their arguments and in order, are given by the message, the sandbox's memory at the moments at which it is read, the kernel, and the exports and network configuration that the host has made for this sandbox. A frame of the wrong size or place gets ENOSYS. A path that is no string in the heap or climbs above the root gets EINVAL, one that no export covers ENOENT. A network request without a descriptor or with a bad address gets EINVAL, one that is not allowed ENOSYS. The reply to a name lookup and the one lookup made for it are settled in the same way, and what the sandbox finds in its memory afterwards is the list that the host's function returned. A message of any other kind gets the result of the function that the host registered for this sandbox under that number, called once with the bytes of the frame and the descriptor that came, or ENOSYS if there is none. There is one possible answer.", "quantifier": "all hosts with any number of sandboxes, all sequences of exports, configuration calls, registrations and messages, all contents of the shared memory at each read, all kernels and user functions", "why_tests_cant": "The answer depends on the history of grants to one among many sandboxes, on memory that changes between reads and on every result of the kernel; tests try a few requests with one sandbox.", "anchors": ["src/libsandbox.cc: CallbackDispatcher::handle, handle_path_syscall, handle_open, handle_openat, handle_stat, handle_access, handle_bind_or_connect", "include/process_sandbox/callbacks.h: CallbackHandler::invoke", "include/process_sandbox/netpolicy.h: NetworkPolicy::invoke", "include/process_sandbox/platform/safe_syscalls-linux.h", "src/libsandbox.cc: handle_getaddrinfo", "include/process_sandbox/sandbox.h: Library::register_callback"]}
{"id": "C133", "title": "Earlier messages do not change how the host treats a message", "statement": "What the host replies to a message, and everything that it does because of it, is what it would reply and do if nothing had happened before but its own exports, network configuration and registrations for this sandbox. No sequence of messages, from this sandbox or from others, gains or loses any authority, renumbers a function or changes an answer, as long as the kernel, the memory and the host's functions answer alike. Two sandboxes with the same grants and memory of the same shape are treated alike, whichever host or sandbox they are.", "quantifier": "all hosts with any number of sandboxes, all sequences of exports, configuration calls, registrations, memory requests and messages before, all messages, all contents of memory, all kernels and user functions", "why_tests_cant": "It compares two whole histories of any length; a test compares a few.", "anchors": ["src/libsandbox.cc: CallbackDispatcher::handle, register_callback, enlarge_handlers", "include/process_sandbox/filetree.h: ExportedFileTree", "include/process_sandbox/netpolicy.h: NetworkPolicy"]}
{"id": "C14", "title": "Path-based requests touch the host file system only beneath exported handles", "statement": "An open/stat/access request from the sandbox causes a host file operation only on a handle the embedder exported: either the exported file itself, or a relative path without '..' and without empty components beneath an exported directory, resolved with the kernel's stay-beneath mode. The sandbox can name any bytes it likes.", "quantifier": "for every heap contents, request argument, export history and racing write to the path string", "why_tests_cant": "adversarial path strings and export histories are unbounded", "anchors": ["src/libsandbox.cc: handle_path_syscall, handle_open, handle_access, handle_stat", "include/process_sandbox/platform/safe_syscalls-linux.h: openat_beneath, faccessat_beneath, fstatat_beneath"]}
{"id": "C15", "title": "Refused path requests have no host effect and a definite error", "statement": "An open, stat or access request whose path pointer is invalid or unterminated, or whose path climbs above the root, gets -EINVAL; one that names nothing exported gets -ENOENT; in these cases no host system call is made. A stat request never writes outside the sandbox heap.", "quantifier": "for every request and heap contents", "why_tests_cant": "adversarial inputs", "anchors": ["src/libsandbox.cc: handle_path_syscall, handle_stat, check_pointer"]}
{"id": "C16", "title": "Callback numbers are fresh and dispatch reaches the registered handler", "statement": "Each register_callback returns a number never returned before, at least the first user number, so it cannot replace a built-in; at any later time a request with that number invokes that very handler, and a request with any other unused number is answered -ENOSYS.", "quantifier": "for every sequence of registrations and every request number", "why_tests_cant": "histories are unbounded and the table is resized on the way", "anchors": ["src/libsandbox.cc: CallbackDispatcher::register_callback, enlarge_handlers, register_handler, handle, CallbackDispatcher()"]}
{"id": "C17", "title": "Each received callback request gets exactly one reply or the sandbox is killed", "statement": "Serving one callback consumes at most one request and sends at most one reply; if a request was received, then either exactly one reply with the handler's result is queued or the child is terminated. Replies are in request order.", "quantifier": "for every request, handler behaviour and socket state", "why_tests_cant": "depends on socket failure points", "anchors": ["src/libsandbox.cc: CallbackDispatcher::handle", "include/process_sandbox/platform/socketpair_posix.h: send_msg, receive_msg"]}
{"id": "C18", "title": "bind/connect requests are mediated by the policy on a bounded private copy", "statement": "A bind or connect request reaches the network policy only with a descriptor supplied by the sandbox, an address length of at most 4096, and an address block inside the sandbox heap; the policy sees a private 4096-byte buffer whose first length bytes are the sandbox's bytes and whose rest is filler. All other requests get -EINVAL and never reach the policy. No byte is written outside the buffer.", "quantifier": "for every descriptor, address, length and heap contents", "why_tests_cant": "adversarial inputs including 32-bit lengths near the limits", "anchors": ["src/libsandbox.cc: handle_bind_or_connect"]}
{"id": "C19", "title": "Network access is denied unless the last decision for that operation says otherwise", "statement": "With no configuration every operation is denied without calling the system; after any sequence of allow/deny/register_handler calls each operation behaves according to the last call made for that operation, independently of the others.", "quantifier": "for every configuration history, operation and argument", "why_tests_cant": "histories are unbounded", "anchors": ["include/process_sandbox/netpolicy.h: deny, allow, register_handler, invoke"]}
{"id": "C20", "title": "Address lookup results are copied entirely inside one sandbox block", "statement": "When a name lookup succeeds, all writes made on behalf of the sandbox fall inside one block allocated in the sandbox heap, of the exact size needed, or in the caller-supplied result slot, which is first checked to be inside the heap.", "quantifier": "for every result list and every request", "why_tests_cant": "lists have any length and address sizes", "anchors": ["src/libsandbox.cc: handle_getaddrinfo"]}
{"id": "C21", "title": "Address lookup results keep their contents and disclose no host pointers", "statement": "The sandbox sees a list with the same entries and address bytes in the same order, null-terminated, in which every pointer field is null or points into the sandbox heap.", "quantifier": "for every result list", "why_tests_cant": "lists have any length", "anchors": ["src/libsandbox.cc: handle_getaddrinfo"]}
{"id": "C22", "title": "Chunk allocation requests are validated", "statement": "A chunk allocation request succeeds only for a power-of-two size of at least the minimum chunk size, with a message-queue pointer that is null or inside the sandbox, and an object size not above the chunk size; on any error nothing changes. On success exactly the returned chunk's map entries become sandbox-owned.", "quantifier": "for every request word and every map/allocator state", "why_tests_cant": "adversarial 64-bit arguments", "anchors": ["src/libsandbox.cc: MemoryServiceProvider::run (AllocChunk)", "include/process_sandbox/sandbox.h: Pagemap::set_metaentry", "include/process_sandbox/sandbox_meta_entry.h"]}
{"id": "C23", "title": "A sandbox can return only memory it owns, and only once", "statement": "A chunk release request succeeds only if the whole range is inside the sandbox's heap, of power-of-two size, chunk aligned, and every chunk of it is currently sandbox-owned; afterwards none of it is, so releasing any part again is refused. On error nothing changes.", "quantifier": "for every request and every map state", "why_tests_cant": "double-free and partial-free combinations over arbitrary histories", "anchors": ["src/libsandbox.cc: MemoryServiceProvider::run (DeallocChunk)", "include/process_sandbox/sandbox.h: Backend::dealloc_range"]}
{"id": "C24", "title": "Sandboxes are isolated from each other in the shared page map", "statement": "No sequence of requests by one sandbox changes the page-map entry of an address outside that sandbox's own heap, whatever other sandboxes and the host do in between; sandbox-owned entries exist only inside the heap of the sandbox that allocated them.", "quantifier": "for every number of sandboxes with disjoint heaps and every interleaving of requests", "why_tests_cant": "needs all interleavings of several adversaries", "anchors": ["src/libsandbox.cc: MemoryServiceProvider::run", "include/process_sandbox/sandbox.h: Pagemap"]}
{"id": "C25", "title": "Memory handed out is never handed out twice", "statement": "Chunks given to the sandbox and chunks given to the host's own in-sandbox allocator never overlap while they are live, for any sequence of allocations and releases by both.", "quantifier": "for every interleaving of host and sandbox requests, including hostile ones", "why_tests_cant": "corrupting merges need a particular sequence of adversarial releases", "anchors": ["src/libsandbox.cc: MemoryServiceProvider::run (DeallocChunk)", "include/process_sandbox/sandbox.h: Backend::alloc_chunk, dealloc_range, LocalState"]}
{"id": "C26", "title": "Each memory-service request gets exactly one answer, and only recognised requests succeed", "statement": "Every request message received is answered by exactly one response in order, or the sandbox is terminated and never served again; a request of unknown kind is answered with an error.", "quantifier": "for every request stream and socket failure point", "why_tests_cant": "depends on failure points and on all 2^64 request kinds", "anchors": ["src/libsandbox.cc: MemoryServiceProvider::run, add_range"]}
{"id": "C27", "title": "Destroying a sandbox clears its page-map entries and no others", "statement": "After destruction every page-map entry of the sandbox's heap is empty and every other entry is unchanged.", "quantifier": "for every page map and region", "why_tests_cant": "the loop covers up to the whole heap; off-by-one only shows at the ends", "anchors": ["src/libsandbox.cc: Library::~Library"]}
{"id": "C28", "title": "Destroying a sandbox frees each host-side slab record exactly once", "statement": "Host-side metadata of live slabs is released exactly once, including slabs that span several chunks, and metadata pointers supplied by the sandbox are never released.", "quantifier": "for every page map reachable by host and sandbox requests", "why_tests_cant": "depends on which slabs are alive at destruction", "anchors": ["src/libsandbox.cc: Library::~Library", "include/process_sandbox/sandbox.h: Backend::alloc_chunk"]}
{"id": "C29", "title": "Nested calls and callbacks pass control like a call stack", "statement": "For a co-operating child, any nesting of calls into the sandbox and callbacks out of it keeps exactly one side running, never signals a semaphore that is already set (so the invariant check never aborts), returns each call to its caller with the callback depth restored, and ends with both sides idle.", "quantifier": "for every call/callback nesting tree and every scheduling of the two processes", "why_tests_cant": "all nesting depths and interleavings", "anchors": ["src/libsandbox.cc: Library::send", "src/library_runner.cc: runloop, callback", "include/process_sandbox/shared_memory_region.h"]}
{"id": "C30", "title": "Each callback receives its own reply", "statement": "For a co-operating child and any nesting, the reply a callback reads is the one its own request produced.", "quantifier": "for every nesting tree and scheduling", "why_tests_cant": "reply mix-ups need deep re-entrancy", "anchors": ["src/libsandbox.cc: CallbackDispatcher::handle, Library::send", "src/library_runner.cc: callback"]}
{"id": "C31", "title": "A crash of the sandbox is reported to the caller, not turned into a hang or host crash", "statement": "If the child process dies at any point, a call in progress raises an exception, and so do later calls.", "quantifier": "for every crash point", "why_tests_cant": "crash points include between any two child instructions, including before loading has finished", "anchors": ["src/libsandbox.cc: Library::send, has_child_exited", "include/process_sandbox/platform/onebitsem_futex.h"]}
{"id": "C32", "title": "A hostile sandbox cannot crash the host", "statement": "Whatever values the sandbox writes to the shared header, the host never aborts in its call protocol.", "quantifier": "for every behaviour of the sandbox", "why_tests_cant": "adversarial schedules and memory writes", "anchors": ["src/libsandbox.cc: Library::send", "include/process_sandbox/platform/onebitsem_futex.h: wake"]}
{"id": "C33", "title": "The one-bit semaphore neither loses nor duplicates a wake-up", "statement": "If wakes and waits alternate as the protocol prescribes, each wake lets exactly one wait succeed, no wake is lost even if it arrives between a waiter's check and its sleep, and a successful wait is always preceded by a matching wake; two wakes with no wait between abort.", "quantifier": "for every number of waiters and every interleaving of their atomic steps", "why_tests_cant": "requires all interleavings of futex and atomic steps", "anchors": ["include/process_sandbox/platform/onebitsem_futex.h: wake, wait"]}
{"id": "C34", "title": "Exit status is stable and faithful", "statement": "Once a child has been observed as exited, every later query gives the same answer without asking the system again (so a recycled process id is never queried), and the reported code tells an abnormal termination from success.", "quantifier": "for every sequence of queries and every system answer", "why_tests_cant": "depends on the raw wait status and on pid recycling", "anchors": ["include/process_sandbox/platform/child_process_vfork.h: waitpid, exit_status, wait_for_exit"]}
{"id": "C35", "title": "The child starts with exactly the intended descriptors", "statement": "At exec the child has the shared heap, page map, callback socket, library and memory-service socket at their fixed numbers, the three standard streams as inherited, and nothing else, whatever numbers these had in the parent.", "quantifier": "for every descriptor table of the parent", "why_tests_cant": "needs all placements of the five descriptors, including low numbers", "anchors": ["src/libsandbox.cc: Library::start_child", "include/process_sandbox/sandbox_fd_numbers.h", "include/process_sandbox/platform/sandbox_seccomp-bpf.h: execve"]}
{"id": "C36", "title": "The heap location is transmitted faithfully to the child", "statement": "The location string always fits its 52-byte buffer, and what the child parses from it equals the address and size the parent put in.", "quantifier": "for every 64-bit address and size", "why_tests_cant": "2^128 inputs", "anchors": ["src/libsandbox.cc: Library::start_child (location)", "src/library_runner.cc: bootstrap"]}
{"id": "C37", "title": "Function numbers agree between host and sandbox", "statement": "If both sides list the same functions in the same order then the n-th host proxy calls the n-th exported function, slot 0 is always the type-description function, and no two proxies share a slot.", "quantifier": "for every list of functions", "why_tests_cant": "unbounded lists", "anchors": ["include/process_sandbox/cxxsandbox.h: ExportedLibrary::export_function, call, Function", "include/process_sandbox/sandbox.h: next_vtable_entry"]}
{"id": "C38", "title": "Shared regions are naturally aligned and nothing else stays mapped", "statement": "Whatever address the system picks for the over-sized reservation, the resulting region has the requested power-of-two size, is aligned to its size and lies inside the reservation, and exactly the rest of the reservation is released.", "quantifier": "for every reservation address and every size", "why_tests_cant": "the address is chosen by the kernel", "anchors": ["include/process_sandbox/platform/shm_posix.h: SharedMemoryMapPOSIX", "src/child_malloc.h: PalRange::alloc_range"]}
{"id": "C39", "title": "Owned descriptors are closed exactly once", "statement": "In any sequence of handle operations that obeys the single-owner rule, no descriptor is closed twice or closed while still owned, and destroying all handles closes everything not released by take.", "quantifier": "for every sequence of construct/move/assign/reset/take/destroy", "why_tests_cant": "histories are unbounded", "anchors": ["include/process_sandbox/platform/platform.h: Handle"]}
{"id": "C40", "title": "Receiving a message never leaks or invents a descriptor", "statement": "A receive either delivers the message and exactly the descriptor the sender attached (or none), or fails leaving no stray descriptor open in the receiver.", "quantifier": "for every message size and set of attached descriptors a hostile sender may choose", "why_tests_cant": "hostile senders choose odd sizes and counts", "anchors": ["include/process_sandbox/platform/socketpair_posix.h: receive_msg, receive"]}
{"id": "C41", "title": "The system-call filter is default-deny and mediates all name-space access", "statement": "A system call not listed kills the process; every call the library emulates is trapped; process-directed calls are allowed only on the process itself; new processes cannot be created; every call that takes a path is trapped or denied.", "quantifier": "for every system call number and argument", "why_tests_cant": "the filter is a table over all call numbers and 64-bit arguments", "anchors": ["include/process_sandbox/platform/sandbox_seccomp-bpf.h: apply_sandboxing_policy_postexec"]}
{"id": "C42", "title": "Trapped system calls are emulated faithfully", "statement": "A trapped call that has an emulation invokes that emulation with the call's arguments in order, and its result or error is put where the calling program expects it, with execution resuming after the call; the error convention survives the round trip through host reply, emulation and C wrapper.", "quantifier": "for every register state and every host answer", "why_tests_cant": "all register values and error codes", "anchors": ["src/library_runner.cc: syscall_callback, extract_args, emulate, syscall_return, syscall_callback_helper", "include/process_sandbox/platform/syscall_context_linux.h"]}
{"id": "C43", "title": "Arguments passed out of the sandbox are always readable by the host", "statement": "Every pointer argument a well-behaved child passes in a callback designates sandbox-heap memory holding the caller's data, copying it there when the caller's object is elsewhere, and results are copied back.", "quantifier": "for every argument address and contents", "why_tests_cant": "depends on where callers place objects", "anchors": ["src/library_runner.cc: CallbackPtrArg, CallbackCStrArg, callback_bind_or_connect, invoke_user_callback, is_inside_shared_memory"]}
{"id": "C44", "title": "The host never uses a destroyed sandbox", "statement": "The background memory-service thread never accesses a sandbox object after its destruction has completed.", "quantifier": "for every interleaving of the service thread with destruction", "why_tests_cant": "a race between two threads", "anchors": ["src/libsandbox.cc: MemoryServiceProvider::run, Library::~Library"]}
{"id": "C45", "title": "Exported handles are neither lost nor duplicated", "statement": "After every export, the handles owned by the file tree together with those closed by replacing an entry are exactly the handles owned before plus the newly accepted one; a refused or failing export closes and takes nothing; a lookup never returns a handle that has been closed.", "quantifier": "for every tree, path text and handle", "why_tests_cant": "handle leaks and stale handles depend on arbitrary histories of replacing exports", "anchors": ["include/process_sandbox/filetree.h: ExportedFileTree::add_handle, add_tree, add_file, add_directory"]}
{"id": "C46", "title": "Failure to start the child is noticed", "statement": "If the child process cannot be created, the host learns of it; in particular no status query then waits for, and no termination then signals, any process other than the sandbox.", "quantifier": "for every result of process creation and every sequence of system answers", "why_tests_cant": "process creation fails only when the system is out of resources, which no test provokes; the consequence is a signal to every process of the user", "anchors": ["include/process_sandbox/platform/child_process_vfork.h:82-128"]}
{"id": "C47", "title": "A destroyed sandbox leaves no descriptor behind", "statement": "Creating and destroying a sandbox leaves the host's descriptor table as it was: all descriptors made for the sandbox are closed and no other descriptor is closed or redirected.", "quantifier": "for every descriptor table of the host and every number of sandboxes", "why_tests_cant": "leaks show only after hundreds of sandboxes and depend on vfork sharing memory", "anchors": ["src/libsandbox.cc: Library::Library, Library::start_child, Library::~Library, MemoryServiceProvider::run", "include/process_sandbox/platform/child_process_vfork.h: constructor"]}
{"id": "C48", "title": "The sandbox cannot write the page map", "statement": "No descriptor of the started child refers to the shared page map with write permission.", "quantifier": "for every descriptor table of the parent", "why_tests_cant": "depends on odd placements of descriptors and on the environment", "anchors": ["src/libsandbox.cc: Library::start_child", "include/process_sandbox/platform/sandbox_seccomp-bpf.h: execve"]}
{"id": "C49", "title": "The heap has the size that was asked for", "statement": "A sandbox created with a size of n GiB has a heap whose size is the least power of two that holds n GiB; requests that cannot be represented are refused.", "quantifier": "for every 64-bit n", "why_tests_cant": "the interesting sizes exceed any machine", "anchors": ["src/libsandbox.cc: Library::Library", "include/process_sandbox/platform/shm_posix.h: SharedMemoryMapPOSIXBase"]}
{"id": "C50", "title": "Failed mappings are noticed and harmless", "statement": "If the system refuses a reservation or mapping, the constructor or allocation reports failure and leaves the address space as it was.", "quantifier": "for every size and every failure", "why_tests_cant": "mmap failures are rare and not injected", "anchors": ["include/process_sandbox/platform/shm_posix.h: SharedMemoryMapPOSIX", "src/child_malloc.h: PalRange::alloc_range"]}
{"id": "C51", "title": "Untrusted code never runs without the filter", "statement": "When the child goes on to load the library, the whole system-call policy is active; if installing it fails the child stops.", "quantifier": "for every answer of libseccomp and the kernel", "why_tests_cant": "installation does not fail on test machines", "anchors": ["include/process_sandbox/platform/sandbox_seccomp-bpf.h: apply_sandboxing_policy_postexec", "src/library_runner.cc: main"]}
{"id": "C52", "title": "A trapped call without emulation fails with an error", "statement": "A system call that the filter traps and that the child has no emulation for returns an error to the caller, never a value that means success.", "quantifier": "for every trapped call number and register state", "why_tests_cant": "the table of emulations is sparse and tests only use the emulated ones", "anchors": ["src/library_runner.cc: emulate, syscall_callback", "include/process_sandbox/platform/sandbox_seccomp-bpf.h"]}
{"id": "C53", "title": "Memory requests act only on the sandbox that sent them", "statement": "The memory-service thread, which finds sandboxes by descriptor number, only ever acts on the library object of the sandbox whose message it is handling, even when descriptor numbers are used again by later sandboxes.", "quantifier": "for every interleaving of creation, destruction, requests and the service thread", "why_tests_cant": "depends on reuse of descriptor numbers and on interleavings", "anchors": ["src/libsandbox.cc: MemoryServiceProvider::run, add_range", "include/process_sandbox/platform/poller_epoll.h"]}
{"id": "C54", "title": "A lookup policy is asked exactly what the sandbox asked", "statement": "When a name lookup passes the checks, the policy in force is called once, with the host and service strings found at the sandbox's pointers and the four integer hint fields at their offsets in the sandbox's structure; no other field of the hints reaches the policy.", "quantifier": "for every memory contents, pointers and configured policy", "why_tests_cant": "field offsets, missing terminators and strings at the edge of the heap are rarely exercised together", "anchors": ["src/libsandbox.cc: handle_getaddrinfo", "include/process_sandbox/sandbox.h: strdup_out"]}
{"id": "C55", "title": "The page map tells the sandbox's allocator the truth", "statement": "After any history in which the sandbox uses its allocator properly, every chunk the sandbox holds has in the page map the address of its own slab record, marked as the sandbox's, and the word it asked for; chunks in use do not overlap, lie in the heap, and there is one slab record for each; and a proper request is never refused while the host has a block of that size.", "quantifier": "for every history of allocations and frees by the sandbox, allocations of the host in the same heap, and activity of other sandboxes", "why_tests_cant": "needs long histories across two processes and agreement of two allocators", "anchors": ["src/library_runner.cc: requestHostService, alloc_chunk, dealloc_chunk, SharedMemoryRange", "src/libsandbox.cc: MemoryServiceProvider::run"]}
{"id": "C56", "title": "Running out of memory is reported to the sandbox's allocator", "statement": "When the host cannot provide a chunk, alloc_chunk in the sandbox gives back the slab record and returns a null chunk, so that malloc can fail in the ordinary way; the child is not ended and no null record is used.", "quantifier": "for every state of the heap, size and slab record", "why_tests_cant": "exhausting the shared heap is rarely tested and the two processes treat the error differently", "anchors": ["src/library_runner.cc: alloc_chunk, requestHostService", "src/libsandbox.cc: MemoryServiceProvider::run"]}
{"id": "C57", "title": "Memory requests of several threads are not mixed up", "statement": "When several threads of a sandbox ask the host for memory at the same time, the requests are served one after the other, every thread receives the answer to its own request, and no thread waits for ever because of another.", "quantifier": "for every number of threads and every interleaving with the host's service thread", "why_tests_cant": "depends on interleavings", "anchors": ["src/library_runner.cc: requestHostService"]}
{"id": "C58", "title": "The library runs only in a confined process", "statement": "At every moment at which code of the sandboxed library begins to run (its constructors, its initialisation, calls), the system-call filter is in force, trapped calls are handled, and the open descriptors are exactly the standard streams, the callback socket, the library and the socket for memory requests; calls are only run after the library has been initialised.", "quantifier": "for every host descriptor table, every placement of the handles and every answer of the system", "why_tests_cant": "needs the state at the first instruction of the library for unusual host descriptor tables", "anchors": ["src/library_runner.cc: main", "src/libsandbox.cc: Library::start_child"]}
{"id": "C59", "title": "The library is loaded without asking the host", "statement": "The path that fdlopen passes to the dynamic linker, when the linker opens it under the filter, is recognised by the emulation of openat as a descriptor of the process itself, for every process number, and gives the linker a duplicate of the library's descriptor without any request to the host.", "quantifier": "for every process number and descriptor table", "why_tests_cant": "process numbers vary from run to run", "anchors": ["src/library_runner.cc: fdlopen, callback_openat, main"]}
{"id": "C60", "title": "The stack pivot gives the run loop the new stack and returns", "statement": "The pivot enters the run loop with depth 0 on an aligned stack inside the block that main allocated, and when the run loop returns, the pivot returns to main with main's stack pointer and callee-saved registers.", "quantifier": "for every block address, old stack and memory contents", "why_tests_cant": "the run loop never returns in tests and memory below the block is rarely in use when it is overwritten", "anchors": ["src/library_runner.cc: runloop_with_stack_pivot, main"]}
{"id": "C61", "title": "The page map is created once and before any use", "statement": "Whatever threads create their first sandboxes, one page map is made, and every sandbox works with that one.", "quantifier": "for every interleaving of any number of threads", "why_tests_cant": "a race between two first constructions", "anchors": ["include/process_sandbox/sandbox.h: ensure_initialised, Pagemap::init", "src/libsandbox.cc: LocalState::LocalState"]}
{"id": "C62", "title": "A failed invariant ends the process with a message", "statement": "In a build in which an invariant is tested, a condition that does not hold ends the process with the place and the message; one that holds has no effect. No exception is thrown instead.", "quantifier": "for every message, every use in the library, every build mode and condition", "why_tests_cant": "failing invariants are never exercised, and each message has its own shape", "anchors": ["include/process_sandbox/helpers.h: invariant, invariant_fail, SANDBOX_INVARIANT", "src/library_runner.cc and src/libsandbox.cc: uses"]}
{"id": "C63", "title": "Nested calls behave like plain calls", "statement": "A call through shared memory ends as a direct call of the function would, with functions and handlers calling each other to any depth; afterwards the depth, the message pointer and the call frames are as before.", "quantifier": "for every set of functions and handlers, every nesting, every allocator", "why_tests_cant": "unbounded nesting through one shared message slot", "anchors": ["include/process_sandbox/cxxsandbox.h: Function::operator(), ExportedFunction::operator()", "src/libsandbox.cc: Library::send", "src/library_runner.cc: runloop, callback"]}
{"id": "C64", "title": "Both sides see the shared heap at the same addresses", "statement": "After the child has started, every address in the heap designates the same byte of the shared object on both sides, and the child's bounds are those of its mapping.", "quantifier": "for every address, size, environment and answer of the kernel", "why_tests_cant": "depends on the kernel version and on the address space of the child", "anchors": ["src/libsandbox.cc: Library::Library", "src/library_runner.cc: bootstrap"]}
{"id": "C65", "title": "A new sandbox exports the library directories and the linker cache, and nothing else", "statement": "Right after construction a path is found exactly if it is beneath /lib, /usr/lib or /usr/local/lib, or is /etc/ld.so.cache, and those exist; the handle found is an open descriptor of that object.", "quantifier": "for every disk, descriptor table and path", "why_tests_cant": "depends on which descriptors the host has open", "anchors": ["src/libsandbox.cc: CallbackDispatcher::CallbackDispatcher, libdirs"]}
{"id": "C66", "title": "A sandboxed open, stat or access has the meaning of the call on the exported tree", "statement": "For a program that runs in the sandbox, the system calls open, stat, access and openat of an absolute path end, give in the result register what the call means for the text passed (the export that covers the resolved path, opened beneath; EINVAL for climbing paths; ENOENT for others; the host's error otherwise), make the host perform exactly the corresponding system calls, fill stat's buffer exactly on success, and change nothing else in the program's memory or registers.", "quantifier": "for every text, memory, set of exports, registered handlers, flags and kernel answers, wherever the arguments lie", "why_tests_cant": "six modules in two processes take part, with copies depending on where each argument lies", "anchors": ["src/library_runner.cc: emulate, syscall_callback, callback_open, callback_stat, callback_access, callback_openat, syscall_callback_helper, callback, CallbackPtrArg, CallbackCStrArg", "include/process_sandbox/callbacks.h: CallbackHandler::invoke, SyscallArgs", "src/libsandbox.cc: CallbackDispatcher::handle, handle_open, handle_stat, handle_access"]}
{"id": "C67", "title": "A program in a new sandbox can open only the system libraries", "statement": "In a sandbox to which nothing else was exported, an open makes the host either do nothing and report EINVAL or ENOENT, or open beneath a descriptor of one of the library directories with RESOLVE_BENEATH, or duplicate the linker cache's descriptor.", "quantifier": "for every path, memory, disk and kernel answers", "why_tests_cant": "all paths", "anchors": ["src/libsandbox.cc: CallbackDispatcher::CallbackDispatcher, handle_open", "src/library_runner.cc: callback_open"]}
{"id": "C68", "title": "The FreeBSD semaphore loses no signal and gives each signal to one waiter", "statement": "With the umtx implementation, each signal lets exactly one wait succeed; if the semaphore is set and no thread is still inside wake, then a thread inside wait is awake and will succeed when it runs, or none is asleep, although wake skips the system call when the mark 'has waiters' is clear; a second signal aborts; under the protocol's discipline nothing aborts.", "quantifier": "for any number of threads, interleaving, timeouts and interruptions", "why_tests_cant": "the dangerous interleavings involve the mark, which changes inside the kernel between two instructions", "anchors": ["include/process_sandbox/platform/onebitsem_umtx.h: UMtxOneBitSem::wake, UMtxOneBitSem::wait"]}
{"id": "C69", "title": "A process descriptor names the child and nothing else", "statement": "With the process-descriptor back end, however many threads of the host query, wait for and terminate the child, no query ends the host, every SIGKILL goes to the child even after its process number has been given to another process, and an answer that the child has exited is right in time and code.", "quantifier": "for any number of threads, interleaving, life of the child, and reuse of process numbers", "why_tests_cant": "process numbers are reused rarely and the races are narrow", "anchors": ["include/process_sandbox/platform/child_process_pdfork.h: ChildProcessPDFork", "src/libsandbox.cc: Library::terminate, Library::has_child_exited"]}
{"id": "C70", "title": "A child handle can be used by the service thread and by callers at once", "statement": "The handle of the child may be queried, waited on and terminated by several threads: no query ends the host, a SIGKILL only goes to the child, and a wait returns when the child has exited.", "quantifier": "for any number of threads, interleaving, life of the child, and reuse of process numbers", "why_tests_cant": "races between the service thread and a caller", "anchors": ["include/process_sandbox/platform/child_process_vfork.h: ChildProcessVFork::waitpid, terminate", "include/process_sandbox/platform/child_process_pdfork.h: ChildProcessPDFork::wait_for_exit", "src/libsandbox.cc: Library::terminate, Library::has_child_exited, Library::wait_for_child_exit, MemoryServiceProvider::run"]}
{"id": "C71", "title": "Under Capsicum the child holds its descriptors with the rights it needs and no more", "statement": "When the library runner is executed under the Capsicum policy, its descriptors are the five passed objects, the standard streams and the three library directories, each limited to the operations it is for: in particular the page map can only be read and mapped for reading, the heap cannot be truncated and no library can be changed.", "quantifier": "for every state of the parent's descriptor table and every answer of the kernel", "why_tests_cant": "rights are only visible when a hostile program tries to use them; the tests never do", "anchors": ["include/process_sandbox/platform/sandbox_capsicum.h: SandboxCapsicum::execve", "src/libsandbox.cc: Library::start_child"]}
{"id": "C72", "title": "A call refused by Capsicum and emulated looks to the program like a system call", "statement": "On FreeBSD, a refused open, freebsd11_stat, access, openat, bind or connect, made directly or through syscall or __syscall, becomes one request with the program's arguments in order; the program finds the host's answer in rax with the carry flag clear, or the error with the carry flag set; no other register or flag changes; calls that are not emulated keep the kernel's error; taking the arguments never throws.", "quantifier": "for all registers, answers of the host and ways of making the call", "why_tests_cant": "the shift of the arguments and the carry flag depend on how the call was made, which a test of the C functions does not vary", "anchors": ["include/process_sandbox/platform/syscall_context_freebsd.h: SyscallFrameFreeBSDX8664", "src/library_runner.cc: syscall_callback, emulate, callback_openat"]}
{"id": "C73", "title": "Arrays and objects made in a sandbox are initialised and lie inside it", "statement": "When the host makes an array of count objects of a trivial type, every byte of the array is zero afterwards and no other byte has changed; the array lies inside the sandbox behind its header; when the size of the array does not fit 64 bits or the allocator has nothing, the result is null and no byte has changed. A single object has the bytes its constructor gave it.", "quantifier": "for all sizes, counts, memories and allocators that give blocks inside the sandbox", "why_tests_cant": "the multiplication overflows only for huge counts, and a missing initialisation shows only with memory that was used before", "anchors": ["include/process_sandbox/sandbox.h: Library::alloc (three overloads)", "src/libsandbox.cc: alloc_in_sandbox"]}
{"id": "C74", "title": "Shared memory made under a name becomes anonymous and exclusive", "statement": "Processes that make shared memory with shm_open and random names, in any interleaving with each other and with other programs, and with any random numbers: each gets an object that no other process got and that no other program made; after the constructor no name leads to it; names of other programs are never removed; a process leaves a name only if it ends between shm_open and shm_unlink; the loop ends with the first free name; the host does not go on without an object.", "quantifier": "for all interleavings, numbers of processes, random numbers and names in use", "why_tests_cant": "collisions of random names and process ends between two system calls do not occur in tests", "anchors": ["include/process_sandbox/platform/shm_posix.h: SharedMemoryObjectPOSIX, SharedMemoryObjectMemFD, SharedMemoryMapPOSIXBase"]}
{"id": "C75", "title": "A sandbox that floods the memory service does not starve the others", "statement": "A registered sandbox with a waiting request, or that has closed its socket, is reported to the service thread within as many turns as there are registered sandboxes, whatever arrives for the others; the thread does not sleep while there is something to report; what it reports is true; the end of a sandbox is reported once.", "quantifier": "for all numbers of sandboxes, messages and interleavings", "why_tests_cant": "a test cannot show that no schedule starves a sandbox", "anchors": ["include/process_sandbox/platform/poller_epoll.h: EPollPoller", "src/libsandbox.cc: MemoryServiceProvider::run"]}
{"id": "C76", "title": "Signals do not disturb the memory service", "statement": "When a signal interrupts the wait of the service thread, the thread goes on waiting: it handles all events in order and ends the host only for another error.", "quantifier": "for all sequences of interruptions, empty results, events and errors", "why_tests_cant": "signals that arrive during the wait are rare in tests", "anchors": ["include/process_sandbox/platform/poller_epoll.h: EPollPoller::poll", "include/process_sandbox/platform/poller_kqueue.h: KQueuePoller::poll", "src/libsandbox.cc: MemoryServiceProvider::run"]}
{"id": "C77", "title": "The heap of a sandbox is safe under concurrent use", "statement": "The service thread, answering a sandbox that asks for and releases anything, and any number of host threads that allocate and free use one heap and the page map at once. However their steps interleave: a block is given out only when nobody has any part of it; a release by the sandbox is accepted only for chunks that the sandbox has; chunks that the host or the sandbox has are marked as theirs in the page map, and chunks in the range allocator as its own; and when nothing is in progress every chunk of the heap is in the range allocator or someone has it.", "quantifier": "for all interleavings of any number of threads, all requests and all choices of the range allocator among free blocks", "why_tests_cant": "races between single entries of the page map do not show in tests", "anchors": ["src/libsandbox.cc: MemoryServiceProvider::handle_requests", "include/process_sandbox/sandbox.h: SnmallocGlobals::Backend::alloc_chunk, dealloc_range", "include/process_sandbox/sandbox_meta_entry.h"]}
{"id": "C78", "title": "Calls and callbacks from several threads do not disturb each other", "statement": "Any number of host threads may call into one sandbox and any number of threads of the sandbox may make callbacks: each call returns after its own function has run, each callback returns with its own reply, and no process aborts.", "quantifier": "for all numbers of threads on both sides, all nestings and all interleavings", "why_tests_cant": "needs two threads that reach the protocol within a few instructions of each other", "anchors": ["src/libsandbox.cc: Library::send", "src/library_runner.cc: callback, runloop", "include/process_sandbox/shared_memory_region.h: SharedMemoryRegion::token", "include/process_sandbox/platform/onebitsem_futex.h: wake"]}
{"id": "C79", "title": "A dead sandbox does not leave a host thread hanging", "statement": "Whatever a sandbox did before it died, every call into it that is in progress or begins afterwards ends within a bounded number of steps of the host, by returning or by raising an error.", "quantifier": "for all histories of a hostile sandbox and all states of the shared header that it leaves behind", "why_tests_cant": "needs a sandbox that rewrites the header and dies between two particular reads of the host; a hang has no end that a test could see", "anchors": ["src/libsandbox.cc: Library::send", "include/process_sandbox/sandbox.h: is_first_call", "include/process_sandbox/shared_memory_region.h: is_child_loaded"]}
{"id": "C80", "title": "A network call of the sandboxed program reaches the function that the host has chosen, intact or not at all", "statement": "When a sandboxed program calls bind or connect, the function chosen by the host's last configuration call about that operation is called once, with the program's socket and exactly the bytes of the address, and the program finds its result in its register; a call that cannot be passed on calls nothing and gives the program an error or ends the sandbox. Whatever messages a hostile sandbox sends, only chosen functions are called, and none if the host has configured nothing.", "quantifier": "for all configurations, memories, registers, messages and results of the functions", "why_tests_cant": "the parts are tested singly if at all; the path from the registers to the policy goes through six components and three copies", "anchors": ["src/library_runner.cc: callback_bind_or_connect, callback", "src/libsandbox.cc: handle_bind_or_connect, CallbackDispatcher::handle", "include/process_sandbox/netpolicy.h: NetworkPolicy::invoke", "include/process_sandbox/callbacks.h: CallbackHandler::invoke", "include/process_sandbox/platform/socketpair_posix.h: send_msg"]}
{"id": "C81", "title": "A call of a sandboxed function uses its own frame and nothing else", "statement": "Whatever the sandbox does meanwhile, a call through a proxy stores only inside one frame in the sandbox's heap, sends its own index with that frame once, loads each byte of the result once from that frame, frees that frame exactly if the call returns, and leaves the host's own memory as it was; with an honest sandbox the function gets exactly the bytes of the arguments and the caller exactly the bytes of the result. Over any sequence of calls exactly the frames of the calls that returned have been freed.", "quantifier": "for all frame layouts, arguments, memories, allocator answers, sandbox behaviours between any two steps of the host, tables of functions, sequences of calls", "why_tests_cant": "tests call a few functions of cooperating libraries; the interleavings with a hostile sandbox are not explored", "anchors": ["include/process_sandbox/cxxsandbox.h: argframe, Function::operator(), ExportedFunction::operator(), ExportedLibrary::call", "include/process_sandbox/sandbox.h: Library::alloc, Library::free", "src/library_runner.cc: runloop"]}
{"id": "C82", "title": "Creating a proxy acts on no memory outside the sandbox", "statement": "Whatever the sandbox answers, creating a proxy loads, stores and frees nothing outside the sandbox's heap and does not end the host's process; the proxy is created exactly if the type it was declared with is that of the exported function.", "quantifier": "for all types, tables, memories and sandbox behaviours", "why_tests_cant": "the check exists only in debug builds and is tested only with libraries that answer honestly", "anchors": ["include/process_sandbox/cxxsandbox.h: Function::Function, ExportedFunction::type_encoding, ExportedLibrary::type_encoding"]}
{"id": "C83", "title": "The host acts for a sandbox only by virtue of what it granted to that sandbox", "statement": "In every run of a host with any number of sandboxes, and whatever the sandboxes send, everything that the host does while it handles a message of a sandbox is justified by what the host had granted to that very sandbox before: files exported to it and nothing else are opened or looked at, only the functions chosen for its network are called and only on descriptors that it sent, only handlers registered for it run and only under their own numbers, and nothing is stored outside its heap. A descriptor in the reply was obtained by that request itself.", "quantifier": "for all runs: sequences of exports, configurations, registrations, messages of any content from any sandbox and memory operations; all contents of the shared memory, changing between any two reads; all answers of the kernel and the allocator", "why_tests_cant": "confused-deputy bugs need two sandboxes with different rights and a hostile message; the tests run one sandbox at a time", "anchors": ["src/libsandbox.cc: SandboxCallbacks::handle, handle_open, handle_stat, handle_access, handle_openat, handle_bind_or_connect, handle_getaddrinfo", "src/libsandbox.cc: register_callback", "include/process_sandbox/callbacks.h: CallbackHandler::invoke", "include/process_sandbox/filetree.h: add_directory, add_file", "include/process_sandbox/netpolicy.h: allow, register_handler"]}
{"id": "C84", "title": "Sandboxes do not influence each other through the host", "statement": "In every run, everything that is seen of one sandbox (the replies to it, what the host does on its behalf, the numbers of its callbacks, the blocks of memory given to it or taken from its heap by the host) is the same as in the run in which all actions concerning other sandboxes are left out.", "quantifier": "for all runs of any number of sandboxes with disjoint heaps, all messages and memory requests, all contents of the shared memory", "why_tests_cant": "non-interference relates two runs; no test compares them, and the page map and the service thread are shared by all sandboxes", "anchors": ["src/libsandbox.cc: MemoryServiceProvider::run, SandboxCallbacks, Library::Library", "include/process_sandbox/sandbox.h: alloc, free", "include/process_sandbox/callbacks.h: CallbackHandler::invoke"]}
{"id": "C85", "title": "The arguments of every system call stub reach the host's handler unchanged", "statement": "A tuple of arguments written by any of the seven stubs of the child (open, stat, access, openat, bind, connect, getaddrinfo) has exactly the size that the host expects for that kind; if it lies in the heap the host runs the handler of that very call with exactly the arguments given to the stub and the descriptor that was sent, replies with the answer of that handler, and does what that handler does and nothing else.", "quantifier": "for all calls, arguments, contents of padding bytes, positions of the tuple in the heap, answers of the kernel, registered user callbacks", "why_tests_cant": "tests use a few small argument values, with which swapped or truncated arguments can go unnoticed", "anchors": ["src/library_runner.cc: callback, callback_open, callback_stat, callback_access, callback_openat, callback_bind_or_connect, getaddrinfo", "include/process_sandbox/callbacks.h: SyscallArgs, CallbackHandler::invoke", "src/libsandbox.cc: handle_open, handle_stat, handle_access, handle_openat, handle_bind_or_connect, handle_getaddrinfo"]}
{"id": "C86", "title": "Handling messages neither gains nor loses descriptors of the host", "statement": "After any number of messages of a sandbox have been handled, the host has exactly the descriptors that it had before: those that came with the messages, those that handlers opened on the way and those put into replies are closed, whether or not the reply could be sent.", "quantifier": "for all tables of descriptors, also full ones, all sequences of packets with any content, all contents of shared memory and all answers of the kernel", "why_tests_cant": "a leak of one descriptor per message shows after a thousand messages of one kind; tests send a few", "anchors": ["src/libsandbox.cc: SandboxCallbacks::handle, handle_open, handle_openat, handle_access, handle_stat, handle_bind_or_connect", "include/process_sandbox/callbacks.h: CallbackHandler::invoke", "include/process_sandbox/platform/platform.h: Handle", "include/process_sandbox/platform/socketpair_posix.h: receive_msg"]}
{"id": "C87", "title": "Every request of a sandbox is answered exactly once and no message ends the host", "statement": "In every run of a host with any number of sandboxes, each message that has the size of a request is received and answered by exactly one reply, or by ending the sandbox if the reply cannot be sent; a shorter message has no effect. No message, whatever its kind, size, pointer and descriptor and whatever the shared memory contains, makes the host throw, abort or behave undefinedly, so later messages are answered too.", "quantifier": "for all runs: sequences of exports, configurations, registrations, messages of any content from any sandbox; all contents of the shared memory changing between reads; all answers of the kernel; provided that the host's allocator does not fail, functions registered by the user return and no empty function was registered", "why_tests_cant": "denial of service by a malformed message needs the one message that the tests do not send", "anchors": ["src/libsandbox.cc: SandboxCallbacks::handle, handle_open, handle_stat, handle_access, handle_openat, handle_bind_or_connect, handle_getaddrinfo", "include/process_sandbox/callbacks.h: CallbackHandler::invoke", "include/process_sandbox/netpolicy.h: invoke"]}
{"id": "C88", "title": "A sandbox that co-operates can be destroyed at any time outside a call, and the destructor returns", "statement": "Let the host destroy a sandbox at any moment at which no call is in progress: when it has loaded, while it is loading, or while its loader waits for the answer to a callback. Then the host is not aborted, the two processes take at most 16 further steps plus one for each wait of the sandbox that ends without success, neither waits for the other before the sandbox process has ended, and the sandbox ends by exit(0) unless its loader was waiting for the answer to a callback.", "quantifier": "for all co-operative runs before the destruction and all interleavings after it, in both builds; the code that loads the library must return or make a callback", "why_tests_cant": "the outcome depends on a race between the destructor and the loader; the tests destroy sandboxes after their calls only", "anchors": ["src/libsandbox.cc: Library::wait_for_child_exit", "src/library_runner.cc: runloop, callback, main", "include/process_sandbox/shared_memory_region.h: token"]}
{"id": "C89", "title": "A callback of the sandboxed library reaches the registered function intact or not at all", "statement": "When a sandboxed library calls invoke_user_callback with a number that register_callback has returned and data of the function's argument size, wherever the data lies, that function and no other is called once, with exactly the bytes of the data and, if it takes one, the descriptor passed; the caller is told the function's number (its lower 32 bits) or the descriptor it returned, and the child's copy is free again. With a number that was not given out, or another size, nothing is called and the caller is told -ENOSYS. Whatever messages a hostile sandbox sends, at most one function is called for each: the one registered under the number in the message, with bytes from the sandbox's heap and no other descriptor.", "quantifier": "for all registrations, functions, numbers, data addresses and contents, descriptors and messages", "why_tests_cant": "the tests register one or two callbacks with data on the heap; wrong sizes, negative numbers, data outside the heap and truncated results are not tried", "anchors": ["src/library_runner.cc: invoke_user_callback, callback", "src/libsandbox.cc: CallbackDispatcher::handle, register_callback", "include/process_sandbox/callbacks.h: CallbackHandler::invoke"]}
{"id": "C90", "title": "A name lookup of a sandboxed program reaches the chosen function intact and its list comes back into the sandbox's own heap", "statement": "When a sandboxed program calls getaddrinfo with two names, hints and a place for the result that may be anywhere in its memory, the function that the host has chosen for lookups is called once, with exactly the two names and the four numbers of the hints; if it succeeds with a list and there is memory, the caller is told 0 and finds at *res the address of a block in its own heap which holds that list, and apart from the block and the result only the child's scratch memory has changed and its copies are free again. If lookups are not allowed nothing is called and the caller is told -ENOSYS. If the lookup fails the caller is told what toldFailure says (negative EAI codes are replaced by the negated errno, so a failure with errno 0 is reported as success), and *res is whatever was on the stack. Whatever a hostile sandbox sends, at most one function is called, the chosen one, and nothing outside the heap changes.", "quantifier": "for all names, hints, results, lists, policies, memory contents and messages", "why_tests_cant": "the test resolves one name with an allowing policy; failed lookups, empty lists, exhausted memory and hostile frames are not tried", "anchors": ["src/library_runner.cc: getaddrinfo, callback_helper, callback", "src/libsandbox.cc: handle_getaddrinfo, CallbackDispatcher::handle", "include/process_sandbox/netpolicy.h: NetworkPolicy"]}
{"id": "C91", "title": "A hostile sandbox cannot make memory of another be handed out twice", "statement": "Whatever requests the other sandboxes send, in any order and mixed with the host's own allocations: in a sandbox that releases its blocks aligned to their size the host's blocks never overlap each other or a chunk that the sandbox owns, no block handed out to or for another sandbox reaches into it, a block handed out in it has no chunk that is in use, and a chunk it owns stays its own until it releases it itself.", "quantifier": "for every number of sandboxes, every interleaving and all requests of the others, aligned or not", "why_tests_cant": "C25 fails for a sandbox that releases badly; tests do not run two sandboxes, one of which attacks the memory service, and cannot show that the damage stays inside", "anchors": ["src/libsandbox.cc: MemoryServiceProvider::run", "include/process_sandbox/sandbox.h: Backend::alloc_chunk, dealloc_range, set_metaentry"]}
{"id": "C92", "title": "A relative openat of a sandboxed program reaches the host's kernel intact, beneath the program's own directory, and its result comes back", "statement": "When a sandboxed program makes the system call openat with a relative path, the host opens exactly that text with those flags and that mode beneath the directory whose descriptor the program gave, with RESOLVE_BENEATH, closes its copy of the descriptor and does nothing else; the program gets a descriptor of the file or the error, goes on with its other registers as they were, and its memory is as before.  No message of this kind makes the host open anything that is not beneath the descriptor that came with it.", "quantifier": "for all registers, paths, flags, modes and memory contents, all answers of the host's kernel, and for the last sentence all messages and memory contents", "why_tests_cant": "the way goes through two processes, two copies of the path, a copy of the arguments and a descriptor sent over a socket; the repository's tests do not call openat with a relative path", "anchors": ["src/library_runner.cc: callback_openat, syscall_callback_helper, callback", "src/libsandbox.cc: handle_openat", "include/process_sandbox/platform/safe_syscalls-linux.h: openat_beneath"]}
{"id": "C93", "title": "A program that runs in a sandbox computes what it would compute if its calls did at once what they mean", "statement": "A program in a sandbox computes, makes system calls on paths and sockets, looks names up, calls functions of the host, and goes on with what it finds, as often as it likes.  It runs exactly as on a machine in which there are no copies, messages or tables and every call does at once what it should and nothing else: nothing ends early, it finds the same registers and the same memory, and the host makes the same system calls and calls the same functions in the same order; which blocks the child's allocator gives makes no difference, and all copies are free again after every call.", "quantifier": "for all programs that do not look at the child's own memory, all numbers of calls, all memory contents, all blocks of the allocator, all histories of exports and registrations made in between, and all answers of the kernel and of the host's functions, which may depend on everything before", "why_tests_cant": "it is about unbounded sequences of calls of arbitrary programs; a test is one program with one sequence, and a copy that is not freed or a register that is not restored shows only later", "anchors": ["src/library_runner.cc: emulate, syscall_callback, callback_helper, syscall_callback_helper, invoke_user_callback, getaddrinfo", "src/libsandbox.cc: CallbackDispatcher, handle_path_syscall, handle_bind_or_connect, handle_getaddrinfo", "include/process_sandbox/callbacks.h: make_callback_handler"]}
{"id": "C94", "title": "A program that uses a sandboxed library gets what it would get with the library linked in", "statement": "A program of the host computes, calls functions of a sandboxed library, goes on with the results and with what it finds in the shared memory, as often as it likes; the functions compute, make system calls and call functions of the host.  The program runs exactly as on a machine in which a call of the library just runs the function on the program's arguments and the shared memory as it is, and each call of the function acts at once: no call throws, every call returns the same bytes, both memories are the same but for unused memory, and the same system calls and functions have been made in the host, in the same order.  The program ends if it would end.", "quantifier": "for all programs, all libraries whose functions do not look at memory that they have not been given, all numbers of calls of the library and of calls in each, all memory contents, all choices of the two allocators, all worlds of the host", "why_tests_cant": "it is about unbounded alternations of two programs in two processes; a test is one program and one library, and an argument, result or effect that is lost between two layers shows only for some of them", "anchors": ["include/process_sandbox/cxxsandbox.h: Function::operator(), ExportedFunction::operator(), ExportedLibrary::call", "src/libsandbox.cc: Library::send", "src/library_runner.cc: runloop, emulate, invoke_user_callback"]}
{"id": "C95", "title": "A hostile library influences the program that uses it only through the results of its calls, unless the program looks into the heap", "statement": "A program of the host calls functions of a library that answers anything, ends whenever it likes, and whose threads write to the shared heap at any time.  If the program does not look into the heap, it makes exactly the calls, with exactly the arguments, and has exactly the memory outside the heap that it would have on its own with these results; two libraries that give the same results cannot be told apart.  Every result that is not an exception has the size that the program expects.  A program that looks into the heap still finds its own memory, after every call, as it left it.", "quantifier": "for all programs, which may catch exceptions, all sandboxes, all interference with the heap before every single load and store of the host, all allocators that give blocks of the heap, all numbers of calls", "why_tests_cant": "it quantifies over all attackers and all interleavings with the host's loads and stores, and compares two executions", "anchors": ["include/process_sandbox/cxxsandbox.h: Function::operator()", "include/process_sandbox/sandbox.h: Library::alloc, Library::free", "src/libsandbox.cc: Library::send"]}
{"id": "C96", "title": "What the filter refuses under one name it refuses under every other", "statement": "If the system-call filter does not let the sandbox make a call, it does not let it make another call either by which the kernel does the same: the newer forms of calls on files, clocks, signals, scheduling and processes, and the operations of io_uring.", "quantifier": "for all calls in a table of substitutes drawn up from the manual, all arguments, all process numbers", "why_tests_cant": "a test would try the calls somebody thought of; the table is checked in full and for every argument", "anchors": ["include/process_sandbox/platform/sandbox_seccomp-bpf.h: SandboxSeccompBPF::apply_sandboxing_policy_postexec"]}
{"id": "C97", "title": "A sandboxed process holds only descriptors that were granted to it", "statement": "Whatever system calls the sandboxed process makes and whatever messages it sends, interleaved in any way with the host and other sandboxes, every descriptor that it ever holds is one that it was started with at a fixed number, one for an object that it made itself, one for itself, one derived from or received through such a descriptor, a copy of a file exported to this sandbox, one opened beneath a directory exported to it, or one returned by a handler registered for it.", "quantifier": "for all runs of the host, all its sandboxes and the filtered process; all exports, handlers and registrations; all contents of messages", "why_tests_cant": "an authority bound over unbounded histories that composes the start of the child, the filter and the host's handlers; tests see single requests", "anchors": ["src/libsandbox.cc: Library::start_child, CallbackDispatcher::handle, handle_open", "include/process_sandbox/platform/sandbox_seccomp-bpf.h: apply_sandboxing_policy_postexec", "src/library_runner.cc: callback"]}
{"id": "C98", "title": "On FreeBSD, too, path requests stay beneath what was exported", "statement": "With the FreeBSD versions of the safe system calls, a request to open, stat or check a path makes at most one system call in the host: on the file exported at exactly that path, or relative to an exported directory with names that cannot climb and with the kernel's stay-beneath flag, which no flags that the sandbox sends can switch off. Results are written only inside the heap. Requests are refused on FreeBSD exactly when they are on Linux, up to the larger struct stat.", "quantifier": "for every heap contents, request argument, flags, export history, kernel answer and racing write to the path string", "why_tests_cant": "FreeBSD is not run in the Linux tests; the flag must be set for all 2^32 values of the flags and all paths", "anchors": ["include/process_sandbox/platform/safe_syscalls-freebsd.h: SafeSyscallsFreeBSD", "src/libsandbox.cc: handle_path_syscall, handle_open, handle_access, handle_stat, handle_openat"]}
{"id": "C99", "title": "An emulated stat on FreeBSD fills in the caller's structure and nothing else", "statement": "When a sandboxed program calls stat on FreeBSD, a successful call fills in the program's structure with the properties of the file, and memory outside the structure does not change.", "quantifier": "for all memories, addresses, files and outcomes of the call", "why_tests_cant": "the overrun shows only if something live follows the structure, and the misread fields only if a program looks at them", "anchors": ["src/library_runner.cc: callback_stat, CallbackPtrArg", "include/process_sandbox/platform/syscall_context_freebsd.h: SyscallNumbers", "src/libsandbox.cc: handle_stat"]}
