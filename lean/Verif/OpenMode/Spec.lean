import Verif.Basic

/-!
# What `open` does with its flags and mode, and what `openat2` accepts (specification)

From the manual pages open(2) and openat2(2) and `include/uapi/asm-generic/fcntl.h` of Linux, for x86-64.
-/

namespace Verif.OpenMode

/-- All flags that the kernel knows: the access mode and `O_CREAT` … `__O_TMPFILE`. -/
def known : BitVec 32 := 0x7fffc3

/-- `O_PATH`. -/
def path : BitVec 32 := 0x200000

/-- What `O_PATH` may be combined with: `O_DIRECTORY`, `O_NOFOLLOW`, `O_CLOEXEC`, and itself. -/
def withPath : BitVec 32 := 0x2b0000

/-- `O_CREAT` and `__O_TMPFILE`: with one of these, a file is made and the mode counts. -/
def creating : BitVec 32 := 0x400040

/-- The bits of a mode. -/
def modeBits : BitVec 32 := 0o7777

/-- `open` and `openat`: unknown flags are ignored, `O_PATH` overrides most others, and the mode counts only when a file is
made. -/
def native (flags mode : BitVec 32) : BitVec 32 × BitVec 32 :=
  let f := flags &&& known
  let f := if f &&& path ≠ 0 then f &&& withPath else f
  (f, if f &&& creating ≠ 0 then mode &&& modeBits else 0)

/-- What the C library gives the kernel: the caller's mode if the flags ask for one, else 0. -/
def libcMode (flags : BitVec 32) (given : Option (BitVec 32)) : BitVec 32 :=
  if flags &&& creating ≠ 0 then given.getD 0 else 0

/-- `openat2` refuses with `EINVAL` what the others ignore. -/
def admits (flags mode : Word) : Prop :=
  flags &&& ~~~(known.setWidth 64) = 0 ∧
  (flags &&& path.setWidth 64 ≠ 0 → flags &&& ~~~(withPath.setWidth 64) = 0) ∧
  (flags &&& creating.setWidth 64 ≠ 0 → mode &&& ~~~(modeBits.setWidth 64) = 0) ∧
  (flags &&& creating.setWidth 64 = 0 → mode = 0)

instance (flags mode : Word) : Decidable (admits flags mode) := inferInstanceAs (Decidable (_ ∧ _))

/-- `openat2` with these numbers does what `open` does with `flags` and `mode`. -/
def SameAs (flags mode : BitVec 32) (flags' mode' : Word) : Prop :=
  admits flags' mode' ∧ flags' = (native flags mode).1.setWidth 64 ∧ mode' = (native flags mode).2.setWidth 64

end Verif.OpenMode
