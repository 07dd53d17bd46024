import Verif.FileTree.Props
import Verif.Path.Spec
import Verif.PathSyscall.Spec
import Verif.Syscall.Spec

/-!
# What a system call on a path means in a sandbox (specification)

Written in terms of the text that the program passes, the exports that the host has made, and the host's kernel.
Memory, frames, sockets, tables and registers do not occur.
-/

namespace Verif.EndToEnd

open Verif.FileTree (Export specHistory)
open Verif.FileTree.Spec (Answers cut)
open Verif.PathSyscall (HostOp Log Kernel)
open Verif.PathSyscall.Spec (join)
open Verif.Syscall (Answer)

/-- The calls considered, without the path. -/
inductive Want where
  | open_ (flags mode : BitVec 32)
  | access (mode : BitVec 32)
  | stat
  deriving Repr, DecidableEq

/-- A system call of the host that gives a descriptor: the program gets that descriptor, under the number `recv`
gives it, or the error. -/
def fdAnswer (recv : Int → BitVec 32) (r : Int × Int) : Answer :=
  if 0 ≤ r.1 then .descriptor (recv r.1).toNat else .error r.2.toNat

/-- A system call of the host that gives a number: the program gets that number or the error. -/
def intAnswer (r : Int × Int) : Answer :=
  if 0 ≤ r.1 then .value r.1.toNat else .error r.2.toNat

/-- Make one more call. -/
def then_ (k : Kernel) (l : Log) (op : HostOp) : Log := l ++ [⟨op, (k l op).1, (k l op).2⟩]

/-- Opening the rest of a path beneath an exported directory, only to name the object (`O_PATH`).  Where nothing is
left of the path, the code passes no path at all. -/
def nameOp (h : Int) (rest : List (List Byte)) : HostOp :=
  .openat2 h (if rest = [] then none else some (join rest)) 0x200000 0 8

/-- What the program should find, and which calls the host should make, when the program passes the text `s`.
* A path that climbs above the root is an invalid argument.
* A path that no export covers does not exist.
* Otherwise the request is carried out on the export `h` and the names that are left of the path. -/
inductive Meant (hist : List Export) (k : Kernel) (recv : Int → BitVec 32) (s : List Byte) :
    Want → Answer → Log → Prop where
  | climbs (want) : Path.Spec.resolve [] (cut s) = none → Meant hist k recv s want (.error 22) []
  | absent (want names) : Path.Spec.resolve [] (cut s) = some names →
      (∀ h rest, ¬ Answers (specHistory hist) names h rest) → Meant hist k recv s want (.error 2) []
  | openFile (names h flags mode) : Path.Spec.resolve [] (cut s) = some names →
      Answers (specHistory hist) names h [] →
      Meant hist k recv s (.open_ flags mode) (fdAnswer recv (k [] (.dup h))) (then_ k [] (.dup h))
  | openBeneath (names h rest flags mode) : Path.Spec.resolve [] (cut s) = some names →
      Answers (specHistory hist) names h rest → rest ≠ [] →
      Meant hist k recv s (.open_ flags mode)
        (fdAnswer recv (k [] (.openat2 h (some (join rest)) (flags.signExtend 64) (mode.setWidth 64) 8)))
        (then_ k [] (.openat2 h (some (join rest)) (flags.signExtend 64) (mode.setWidth 64) 8))
  | accessNone (names h rest mode) : Path.Spec.resolve [] (cut s) = some names →
      Answers (specHistory hist) names h rest → (k [] (nameOp h rest)).1 < 0 →
      Meant hist k recv s (.access mode) (.error (k [] (nameOp h rest)).2.toNat) (then_ k [] (nameOp h rest))
  | accessSome (names h rest mode p l) : Path.Spec.resolve [] (cut s) = some names →
      Answers (specHistory hist) names h rest → (k [] (nameOp h rest)).1 = p → 0 ≤ p →
      l = then_ k [] (nameOp h rest) →
      Meant hist k recv s (.access mode) (intAnswer (k l (.faccessat2 p [] mode 0x1000)))
        (then_ k (then_ k l (.faccessat2 p [] mode 0x1000)) (.close p))
  | statFile (names h sb) : Path.Spec.resolve [] (cut s) = some names →
      Answers (specHistory hist) names h [] →
      Meant hist k recv s .stat (intAnswer (k [] (.fstat h sb))) (then_ k [] (.fstat h sb))
  | statNone (names h rest) : Path.Spec.resolve [] (cut s) = some names →
      Answers (specHistory hist) names h rest → rest ≠ [] → (k [] (nameOp h rest)).1 < 0 →
      Meant hist k recv s .stat (.error (k [] (nameOp h rest)).2.toNat) (then_ k [] (nameOp h rest))
  | statSome (names h rest p l sb) : Path.Spec.resolve [] (cut s) = some names →
      Answers (specHistory hist) names h rest → rest ≠ [] → (k [] (nameOp h rest)).1 = p → 0 ≤ p →
      l = then_ k [] (nameOp h rest) →
      Meant hist k recv s .stat (intAnswer (k l (.fstatat p [] sb 0x1000)))
        (then_ k (then_ k l (.fstatat p [] sb 0x1000)) (.close p))

/-- A kernel whose results fit the C types: a result that is not negative is an `int`; with a negative one comes an
error number. -/
def KernelOk (k : Kernel) : Prop :=
  ∀ l op, (0 ≤ (k l op).1 → (k l op).1 < 2 ^ 31) ∧ ((k l op).1 < 0 → 0 < (k l op).2 ∧ (k l op).2 < 4096)

end Verif.EndToEnd
