import Verif.EndToEnd.Spec
import Verif.BsdPath.Spec
import Verif.FreeBsd.Spec

/-!
# What a system call on a path means in a sandbox on FreeBSD (specification)

Written in terms of the text that the program passes, the exports that the host has made, and the host's kernel.
Memory, frames, sockets, tables and registers do not occur.
-/

namespace Verif.BsdEnd

open Verif.FileTree (Export specHistory)
open Verif.FileTree.Spec (Answers cut)
open Verif.BsdPath (HostOp Log Kernel)
open Verif.PathSyscall.Spec (join)
open Verif.Syscall (Answer)
open Verif.EndToEnd (Want fdAnswer intAnswer)

/-- A single call. -/
def just (k : Kernel) (op : HostOp) : Log := [⟨op, (k [] op).1, (k [] op).2⟩]

/-- What the program should find, and which call the host should make, when the program passes the text `s`.
* A path that climbs above the root is an invalid argument.
* A path that no export covers does not exist.
* Otherwise one system call is made on the export `h` and the names that are left of the path, with the flag that keeps
  it beneath `h`, and the program finds its result.  Where nothing is left of the path, `access` passes no path at all. -/
inductive Meant (hist : List Export) (k : Kernel) (recv : Int → BitVec 32) (s : List Byte) :
    Want → Answer → Log → Prop where
  | climbs (want) : Path.Spec.resolve [] (cut s) = none → Meant hist k recv s want (.error 22) []
  | absent (want names) : Path.Spec.resolve [] (cut s) = some names →
      (∀ h rest, ¬ Answers (specHistory hist) names h rest) → Meant hist k recv s want (.error 2) []
  | openFile (names h flags mode) : Path.Spec.resolve [] (cut s) = some names →
      Answers (specHistory hist) names h [] →
      Meant hist k recv s (.open_ flags mode) (fdAnswer recv (k [] (.dup h))) (just k (.dup h))
  | openBeneath (names h rest flags mode op) : Path.Spec.resolve [] (cut s) = some names →
      Answers (specHistory hist) names h rest → rest ≠ [] →
      op = .openat h (some (join rest)) (flags ||| 0x800000) mode →
      Meant hist k recv s (.open_ flags mode) (fdAnswer recv (k [] op)) (just k op)
  | access (names h rest mode op) : Path.Spec.resolve [] (cut s) = some names →
      Answers (specHistory hist) names h rest →
      op = .faccessat h (if rest = [] then none else some (join rest)) mode 0x2000 →
      Meant hist k recv s (.access mode) (intAnswer (k [] op)) (just k op)
  | statFile (names h sb) : Path.Spec.resolve [] (cut s) = some names →
      Answers (specHistory hist) names h [] →
      Meant hist k recv s .stat (intAnswer (k [] (.fstat h sb))) (just k (.fstat h sb))
  | statBeneath (names h rest sb op) : Path.Spec.resolve [] (cut s) = some names →
      Answers (specHistory hist) names h rest → rest ≠ [] →
      op = .fstatat h (some (join rest)) sb 0x2000 →
      Meant hist k recv s .stat (intAnswer (k [] op)) (just k op)

/-- A kernel whose results fit the C types: a result that is not negative is an `int`; with a negative one comes an
error number. -/
def KernelOk (k : Kernel) : Prop :=
  ∀ l op, (0 ≤ (k l op).1 → (k l op).1 < 2 ^ 31) ∧ ((k l op).1 < 0 → 0 < (k l op).2 ∧ (k l op).2 < 4096)

/-- The system calls on paths, by number and arguments (`syscall(2)` and section 2 of the manual): which call, the address
of the path, and the address of the result for `freebsd11_stat`.  The mode of a new file has 16 bits. -/
def asksPath (c : FreeBsd.Call) : Option (Want × Word × Word) :=
  match c.args with
  | a :: b :: x :: _ =>
    if c.nr = 5 then some (.open_ (b.setWidth 32) ((x.setWidth 16).setWidth 32), a, 0)
    else if c.nr = 188 then some (.stat, a, b)
    else if c.nr = 33 then some (.access (b.setWidth 32), a, 0)
    else none
  | _ => none

end Verif.BsdEnd
