import Verif.Basic

/-!
# Failed invariants and their messages (model)

`SANDBOX_INVARIANT` and its two variants, the function they call, and every use of them in the library.
Formatting (`fmt::vformat`) belongs to another project; what is modelled is the part that the library's messages use:
text, the placeholder `{}`, and the doubled braces.
-/

namespace Verif.Message

/-- `fmt::vformat`, called at `include/process_sandbox/helpers.h:113`, over the arguments left.  `none`: it throws
`format_error`, which is what it does for a placeholder without argument and for a brace on its own.  Simplified: placeholders
with a format specification are not used by the library and are taken as errors. -/
def vformat : List Char → List (List Char) → Option (List Char)
  | [], _ => some []
  | '{' :: '{' :: r, as => (vformat r as).map ('{' :: ·)
  | '}' :: '}' :: r, as => (vformat r as).map ('}' :: ·)
  | '{' :: '}' :: r, a :: as => (vformat r as).map (a ++ ·)
  | '{' :: _, _ => none
  | '}' :: _, _ => none
  | c :: r, as => (vformat r as).map (c :: ·)

/-- In which builds an invariant is tested.  `include/process_sandbox/helpers.h:124-129`. -/
inductive Enable where
  | debugOnly
  | debugAndRelease
  | releaseOnly
  deriving Repr, DecidableEq

/-- What a test of an invariant leads to: nothing, the end of the process with a message
(`snmalloc::DefaultPal::error`, `include/process_sandbox/helpers.h:120`), or an exception
(`format_error`, thrown at `:113`). -/
inductive Outcome where
  | pass
  | abort (msg : List Char)
  | throws
  deriving Repr, DecidableEq

/-- A place in the source.  `include/process_sandbox/helpers.h:62-98`. -/
structure Place where
  file : List Char
  line : List Char
  fn : List Char
  deriving Repr, DecidableEq

/-- The format of the final message.  `include/process_sandbox/helpers.h:115`. -/
def finalFormat : List Char := "{}:{} in {}: {}\n".toList

/-- `include/process_sandbox/helpers.h:109-121`. -/
def invariantFail (msg : List Char) (args : List (List Char)) (sl : Place) : Outcome :=
  match vformat msg args with
  | none => .throws
  | some user =>
    match vformat finalFormat [sl.file, sl.line, sl.fn, user] with
    | none => .throws
    | some final => .abort final

/-- `include/process_sandbox/helpers.h:155-156`. -/
def isEnabled (e : Enable) (isRelease : Bool) : Bool :=
  (e = .debugOnly && !isRelease) || (e = .releaseOnly && isRelease) || e = .debugAndRelease

/-- `include/process_sandbox/helpers.h:140-164`. -/
def invariant (e : Enable) (isRelease : Bool) (cond : Bool) (msg : List Char) (sl : Place) (args : List (List Char)) :
    Outcome :=
  if isEnabled e isRelease then (if cond then .pass else invariantFail msg args sl) else .pass

/-- A use of one of the macros: where, which, its message and the text of the arguments after the message.
`include/process_sandbox/helpers.h:170-188`. -/
structure Use where
  file : String
  line : Nat
  enable : Enable
  msg : String
  argText : String
  deriving Repr, DecidableEq

/-- A macro expanded.  `include/process_sandbox/helpers.h:170-188`: the arguments are passed as `#__VA_ARGS__`, one
string with the text of all of them. -/
def Use.run (u : Use) (isRelease cond : Bool) (sl : Place) : Outcome :=
  invariant u.enable isRelease cond u.msg.toList sl [u.argText.toList]

/-- Every use in the library: `src/library_runner.cc:153`, `:160`, `:321`, `:335`, `:375`, `:420`, `:1076`, `:1112`;
`src/libsandbox.cc:782`, `:800`, `:850`; `include/process_sandbox/path.h:197`; and in `include/process_sandbox/platform/`:
`sandbox.h:68`, `onebitsem_futex.h:42`, `onebitsem_umtx.h:46`, `:53`, `child_process_vfork.h:101`, `shm_posix.h:85`, `:209`, `:280`,
`sandbox_capsicum.h:50`, `:99`, `:127`, `:143`, `:147`. -/
def uses : List Use :=
  [ ⟨"src/library_runner.cc", 153, .debugAndRelease, "Wrote {} bytes, expected {}", "written_bytes, sizeof(req)"⟩,
    ⟨"src/library_runner.cc", 160, .debugAndRelease, "Read {} bytes, expected {}", "read_bytes, sizeof(response)"⟩,
    ⟨"src/library_runner.cc", 321, .debugOnly, "Child is executing when the parent thinks is is not", ""⟩,
    ⟨"src/library_runner.cc", 335, .debugAndRelease, "Uncaught exception", ""⟩,
    ⟨"src/library_runner.cc", 375, .debugAndRelease, "Expected ':' separator in environment variable, got '{}'", "end[0]"⟩,
    ⟨"src/library_runner.cc", 420, .debugAndRelease, "Mapping pagemap failed", ""⟩,
    ⟨"src/library_runner.cc", 1076, .debugOnly, "Pointer {} is out of the sandbox range {}--{}",
      "ptr, shared_memory_start, shared_memory_end"⟩,
    ⟨"src/library_runner.cc", 1112, .debugAndRelease, "Sandbox invoke invoke function not found {}", "dlerror()"⟩,
    ⟨"src/libsandbox.cc", 782, .debugOnly, "Unused pagemap entry must not be sandbox owned", ""⟩,
    ⟨"src/libsandbox.cc", 800, .debugOnly, "Attempting to move invalid file descriptor {}", "x"⟩,
    ⟨"src/libsandbox.cc", 850, .debugAndRelease, "Location length {} is smaller than expected {}",
      "loc_len, sizeof(location)"⟩,
    ⟨"include/process_sandbox/path.h", 197, .debugOnly, "Trying to make an absolute path absolute", ""⟩,
    ⟨"include/process_sandbox/platform/sandbox.h", 68, .debugAndRelease, "Execve failed: {}", "strerror(errno)"⟩,
    ⟨"include/process_sandbox/platform/onebitsem_futex.h", 42, .debugAndRelease,
      "Waking up one-bit semaphore that's already awake.  Count: {}.", "old"⟩,
    ⟨"include/process_sandbox/platform/onebitsem_umtx.h", 46, .debugAndRelease,
      "Waking up one-bit semaphore that's already awake.  Count: {}.", "USEM_COUNT(old)"⟩,
    ⟨"include/process_sandbox/platform/onebitsem_umtx.h", 53, .debugAndRelease, "_umtx_op failed: {}", "ret"⟩,
    ⟨"include/process_sandbox/platform/child_process_vfork.h", 101, .debugAndRelease, "start function must not return", ""⟩,
    ⟨"include/process_sandbox/platform/shm_posix.h", 85, .debugAndRelease,
      "aspintf failed trying to create unique name for POSIX shared memory object", ""⟩,
    ⟨"include/process_sandbox/platform/shm_posix.h", 209, .debugAndRelease, "ftruncate failed {}", "strerror(errno)"⟩,
    ⟨"include/process_sandbox/platform/shm_posix.h", 280, .debugAndRelease, "ftruncate failed {}", "strerror(errno)"⟩,
    ⟨"include/process_sandbox/platform/sandbox_capsicum.h", 50, .debugAndRelease,
      "Unexpected sandbox directory fd number {}, expected {}", "fd, libfd"⟩,
    ⟨"include/process_sandbox/platform/sandbox_capsicum.h", 99, .debugAndRelease,
      "Failed to register for traps on Capsicum violations", ""⟩,
    ⟨"include/process_sandbox/platform/sandbox_capsicum.h", 127, .debugAndRelease,
      "Unexpected file descriptor number for {}: {}", "pathname, binfd"⟩,
    ⟨"include/process_sandbox/platform/sandbox_capsicum.h", 143, .debugAndRelease, "fexecve failed: {}", "strerror(errno)"⟩,
    ⟨"include/process_sandbox/platform/sandbox_capsicum.h", 147, .debugAndRelease, "Execve failed: {}", "strerror(errno)"⟩ ]

end Verif.Message
