/-!
# Common vocabulary

Types shared by all areas: bytes, 64-bit words, and the possible outcomes of a
piece of C++ code.  Undefined behaviour, aborts and exceptions are outcomes of
their own so that no theorem can hold because such a case was hidden.
-/

namespace Verif

/-- A byte of memory or of a C string (`char`; for example `src/libsandbox.cc:415-430`). -/
abbrev Byte := UInt8

/-- A machine word: `uintptr_t`, `size_t`, a pointer value
(x86-64 Linux; `include/process_sandbox/callbacks.h:28-49`). -/
abbrev Word := BitVec 64

/-- Outcome of running a piece of C++ code.
* `ok a`: returns normally.
* `abort`: a `SANDBOX_INVARIANT` failed (`include/process_sandbox/helpers.h:141-172`)
  or the process was stopped by `err`/`report_fatal_error`.
* `throws`: a C++ exception escapes.
* `ub`: undefined behaviour. -/
inductive Outcome (α : Type) where
  | ok (a : α)
  | abort
  | throws
  | ub
  deriving Repr, DecidableEq

/-- A byte-addressed memory, total on 64-bit addresses.  Which addresses may be
touched is the subject of the theorems; the model records the addresses touched
in explicit traces (this is the machine that, for example, `src/libsandbox.cc:415-430` runs on). -/
abbrev Mem := Word → Byte

/-- `ENOENT` of Linux `<errno.h>`, `src/libsandbox.cc:401`. -/
def ENOENT : Int := 2
/-- `EINVAL` of Linux `<errno.h>`, `src/libsandbox.cc:391`. -/
def EINVAL : Int := 22
/-- `ENOSYS` of Linux `<errno.h>`, `include/process_sandbox/callbacks.h:80`. -/
def ENOSYS : Int := 38

end Verif
